import Verif.Spec.Composite
import Verif.Proofs.Basic

/-! Classes with several members: memberwise operations, by induction on the number of members. -/

set_option autoImplicit false
set_option linter.unusedSectionVars false
set_option linter.unusedSimpArgs false

namespace Verif.Composite
open Verif Spec

section
variable {S : Type}

theorem _root_.Verif.Spec.Ends.mono {r : Res S Unit} {Q E Q' E' : S → Prop} {D D' : Prop} (h : Ends r Q E D)
    (hq : ∀ s, Q s → Q' s) (he : ∀ s, E s → E' s) (hd : D → D') : Ends r Q' E' D' := by
  cases r with
  | ok a s => exact hq s h
  | threw e s => exact he s h
  | terminated => exact hd h
  | ub u => exact h
  | diverged => exact h

theorem _root_.Verif.Spec.Ends.bind {m : M S Unit} {f : Unit → M S Unit} {s : S} {P Q E : S → Prop} {D : Prop}
    (h : Ends (m s) P E D) (hf : ∀ s', P s' → Ends (f () s') Q E D) : Ends ((m >>= f) s) Q E D := by
  show Ends (M.andThen m f s) Q E D
  unfold M.andThen
  cases e : m s with
  | ok a s' => rw [e] at h; exact hf s' h
  | threw x s' => rw [e] at h; exact h
  | terminated => rw [e] at h; exact h
  | ub u => rw [e] at h; exact h
  | diverged => rw [e] at h; exact h

theorem _root_.Verif.Spec.Ends.onThrow {m u : M S Unit} {s : S} {P Q E : S → Prop} {D : Prop}
    (h : Ends (m s) Q P D) (hu : ∀ s', P s' → Ends (u s') E (fun _ => False) False) :
    Ends (M.onThrow m u s) Q E D := by
  unfold M.onThrow
  cases e : m s with
  | threw x s' =>
    rw [e] at h
    have := hu s' h
    simp only
    cases e' : u s' with
    | ok a s'' => rw [e'] at this; exact this
    | threw x s'' => rw [e'] at this; exact this.elim
    | terminated => rw [e'] at this; exact this.elim
    | ub u => rw [e'] at this; exact this.elim
    | diverged => rw [e'] at this; exact this.elim
  | ok a s' => rw [e] at h; exact h
  | terminated => rw [e] at h; exact h
  | ub u => rw [e] at h; exact h
  | diverged => rw [e] at h; exact h

theorem build_ends {f u : Nat → M S Unit} {P : Nat → S → Prop} (PE : Nat → S → Prop) {E : S → Prop} {K : Nat} {s : S}
    (h0 : P 0 s) (hs : ∀ k s, k < K → P k s → Ends (f k s) (P (k + 1)) (PE k) False)
    (hu : ∀ k s, k < K → PE k s → Ends (u k s) E (fun _ => False) False) : Ends (build f u K s) (P K) E False := by
  induction K with
  | zero => exact h0
  | succ k ih =>
    refine Ends.bind (ih (fun j s hj => hs j s (by omega)) (fun j s hj => hu j s (by omega))) fun s' h' => ?_
    exact Ends.onThrow (hs k s' (by omega) h') (hu k · (by omega))

theorem each_ends {f : Nat → M S Unit} {P : Nat → S → Prop} {E : S → Prop} {D : Prop} {K : Nat} {s : S} (h0 : P 0 s)
    (hs : ∀ k s, k < K → P k s → Ends (f k s) (P (k + 1)) E D) : Ends (each f K s) (P K) E D := by
  induction K with
  | zero => exact h0
  | succ k ih =>
    exact Ends.bind (ih fun j s hj => hs j s (by omega)) fun s' h' => hs k s' (by omega) h'

end

section
variable {C S A R W X I F : Type} [DecidableEq C]
variable {H : Members C S W I F} {K : Nat} {abs : S → Comp C A W} {Ok : S → Prop}
variable {tr : ATraits A R} {T : Nat → TSpec W X}

theorem put_other {σ : Comp C A W} {l m : C × Nat} {b : Box A W} (h : l ≠ m) : put σ m b l = σ l := by
  simp [put, h]

theorem put_same (σ : Comp C A W) (m : C × Nat) (b : Box A W) : put σ m b m = some b := by simp [put]

theorem dropAll_ends (B : ∀ k, Behaves tr (T k) abs Ok (H k)) (x : C) (es : Nat → Env) (k : Nat) :
    ∀ {s}, Ok s → (∀ j, j < k → ∃ b, abs s (x, j) = some b) →
    Ends (dropAll H x es k s) (fun s' => Ok s' ∧ (∀ j, j < k → abs s' (x, j) = none) ∧
      ∀ l, Outside x k l → abs s' l = abs s l) (fun _ => False) False := by
  induction k with
  | zero => intro s hs _; exact ⟨hs, by simp, fun _ _ => rfl⟩
  | succ k ih =>
    intro s hs hl
    obtain ⟨b, hb⟩ := hl k (by omega)
    refine Ends.bind ((B k).destroy (es k) hs hb) fun s' ⟨hs', ha⟩ => ?_
    refine (ih hs' fun j hj => ?_).mono ?_ (fun _ h => h) (fun h => h)
    · obtain ⟨b, hb⟩ := hl j (by omega)
      refine ⟨b, ?_⟩
      rw [ha]
      have : (x, j) ≠ (x, k) := by intro h; cases h; omega
      simp [drop, this, hb]
    · rintro s'' ⟨h1, h2, h3⟩
      refine ⟨h1, fun j hj => ?_, fun l hl => ?_⟩
      · by_cases e : j < k
        · exact h2 j e
        · have : j = k := by omega
          subst this
          rw [h3 _ (by simp [Outside]), ha]
          simp [drop]
      · rw [h3 l (fun h => hl ⟨h.1, by omega⟩), ha]
        have : l ≠ (x, k) := by rintro rfl; exact hl ⟨rfl, by simp⟩
        simp [drop, this]

/-- Construction of `x` member by member, where `G k` says what becomes of member `k`. -/
theorem construct_ends (B : ∀ k, Behaves tr (T k) abs Ok (H k)) {f : Nat → M S Unit} {x : C} {es : Nat → Env}
    {G : Nat → Box A W → Prop} {s : S} (hs : Ok s) (hd : CDead (abs s) x)
    (hf : ∀ k t, k < K → Ok t → abs t (x, k) = none → (∀ l, l.1 ≠ x → abs t l = abs s l) →
      Ends (f k t) (fun t' => Ok t' ∧ ∃ b, G k b ∧ abs t' = put (abs t) (x, k) b)
        (fun t' => Ok t' ∧ abs t' = abs t) False) :
    Ends (build f (dropAll H x es) K s)
      (fun s' => Ok s' ∧ (∀ k, k < K → ∃ b, G k b ∧ abs s' (x, k) = some b) ∧
        ∀ l, Outside x K l → abs s' l = abs s l)
      (fun s' => Ok s' ∧ abs s' = abs s) False := by
  let P := fun k s' => Ok s' ∧ (∀ j, j < k → ∃ b, G j b ∧ abs s' (x, j) = some b) ∧
        ∀ l, Outside x k l → abs s' l = abs s l
  refine build_ends (P := P) P ⟨hs, by simp, fun _ _ => rfl⟩ ?_ ?_
  · rintro k t hk ⟨ht, hb, ho⟩
    have hn : abs t (x, k) = none := by rw [ho _ (by simp [Outside])]; exact hd k
    refine (hf k t hk ht hn fun l hl => ho l (fun h => hl h.1)).mono ?_ ?_ (fun h => h)
    · rintro t' ⟨ht', b, hG, ha⟩
      refine ⟨ht', fun j hj => ?_, fun l hl => ?_⟩
      · by_cases e : j = k
        · subst e; exact ⟨b, hG, by rw [ha, put_same]⟩
        · obtain ⟨c, hc, hcj⟩ := hb j (by omega)
          exact ⟨c, hc, by rw [ha, put_other (by intro h; cases h; exact e rfl), hcj]⟩
      · rw [ha, put_other (by rintro rfl; exact hl ⟨rfl, by simp⟩), ho l (fun h => hl ⟨h.1, by omega⟩)]
    · rintro t' ⟨ht', ha⟩
      simp only [P, ha]
      exact ⟨ht', hb, ho⟩
  · rintro k t hk ⟨ht, hb, ho⟩
    refine (dropAll_ends B x es k ht fun j hj => ?_).mono ?_ (fun _ h => h) (fun h => h)
    · obtain ⟨b, _, h⟩ := hb j hj; exact ⟨b, h⟩
    · rintro t' ⟨ht', hn, ho'⟩
      refine ⟨ht', ?_⟩
      funext l
      by_cases e : Outside x k l
      · rw [ho' l e, ho l e]
      · obtain ⟨rfl, h2⟩ := Classical.not_not.1 e
        rw [hn l.2 h2, hd l.2]

theorem make_ends (B : ∀ k, Behaves tr (T k) abs Ok (H k)) {x : C} {s : S} (is : Nat → I) (es : Nat → Env)
    (hs : Ok s) (hd : CDead (abs s) x) :
    Ends (call H K (.make x is) es s)
      (fun s' => Ok s' ∧ (∀ k, k < K → ∃ a v, abs s' (x, k) = some ⟨a, some v⟩) ∧
        ∀ l, Outside x K l → abs s' l = abs s l)
      (fun s' => Ok s' ∧ abs s' = abs s) False := by
  refine (construct_ends (G := fun _ b => ∃ a v, b = ⟨a, some v⟩) B hs hd ?_).mono ?_ (fun _ h => h) (fun h => h)
  · intro k t _ ht hn _
    refine ((B k).make (is k) (es k) ht hn).mono ?_ (fun _ h => h) (fun h => h)
    rintro t' ⟨h, a, v, ha⟩
    exact ⟨h, _, ⟨a, v, rfl⟩, ha⟩
  · rintro s' ⟨h1, h2, h3⟩
    refine ⟨h1, fun k hk => ?_, h3⟩
    obtain ⟨b, ⟨a, v, rfl⟩, hb⟩ := h2 k hk
    exact ⟨a, v, hb⟩

theorem live_ne {x y : C} {σ : Comp C A W} (hK : 0 < K) (hd : CDead σ x) (hl : CLive K σ y) : y ≠ x := by
  rintro rfl
  obtain ⟨b, hb⟩ := (hl 0).1 hK
  rw [hd 0] at hb; cases hb

theorem copy_ends (B : ∀ k, Behaves tr (T k) abs Ok (H k)) {x y : C} {s : S} (es : Nat → Env)
    (hs : Ok s) (hd : CDead (abs s) x) (hl : CLive K (abs s) y) :
    Ends (call H K (.copy x y) es s)
      (fun s' => Ok s' ∧ (∀ k, k < K → ∃ b b', abs s (y, k) = some b ∧ CopyOf tr (T k) b b' ∧ abs s' (x, k) = some b') ∧
        ∀ l, Outside x K l → abs s' l = abs s l)
      (fun s' => Ok s' ∧ abs s' = abs s) False := by
  refine (construct_ends (G := fun k b' => ∃ b, abs s (y, k) = some b ∧ CopyOf tr (T k) b b') B hs hd ?_).mono ?_
    (fun _ h => h) (fun h => h)
  · intro k t hk ht hn ho
    obtain ⟨b, hb⟩ := (hl k).1 hk
    have hne := live_ne (by omega) hd hl
    refine ((B k).copy (es k) ht hn (b := b) (by rw [ho _ hne, hb])).mono ?_ (fun _ h => h) (fun h => h)
    rintro t' ⟨h, b', hc, ha⟩
    exact ⟨h, b', ⟨b, hb, hc⟩, ha⟩
  · rintro s' ⟨h1, h2, h3⟩
    refine ⟨h1, fun k hk => ?_, h3⟩
    obtain ⟨b', ⟨b, hb, hc⟩, hb'⟩ := h2 k hk
    exact ⟨b, b', hb, hc, hb'⟩

theorem move_ends (B : ∀ k, Behaves tr (T k) abs Ok (H k)) {x y : C} {s : S} (es : Nat → Env)
    (hs : Ok s) (hd : CDead (abs s) x) (hl : CLive K (abs s) y) :
    Ends (call H K (.move x y) es s)
      (fun s' => Ok s' ∧ (∀ k, k < K → ∃ b, abs s (y, k) = some b ∧ abs s' (x, k) = some b ∧
          abs s' (y, k) = some ⟨b.alloc, none⟩) ∧
        ∀ l, Outside x K l → Outside y K l → abs s' l = abs s l)
      (fun _ => False) False := by
  refine build_ends (PE := fun _ _ => False) (P := fun n s' => Ok s' ∧ (∀ k, k < n → ∃ b, abs s (y, k) = some b ∧ abs s' (x, k) = some b ∧
          abs s' (y, k) = some ⟨b.alloc, none⟩) ∧ ∀ l, Outside x n l → Outside y n l → abs s' l = abs s l)
      ⟨hs, by simp, fun _ _ _ => rfl⟩ ?_ ?_
  · rintro n t hn ⟨ht, hb, ho⟩
    obtain ⟨b, hbn⟩ := (hl n).1 hn
    have hne := live_ne (by omega) hd hl
    have h1 : abs t (x, n) = none := by rw [ho _ (by simp [Outside]) (by simp [Outside])]; exact hd n
    have h2 : abs t (y, n) = some b := by rw [ho _ (by simp [Outside]) (by simp [Outside])]; exact hbn
    refine ((B n).move (es n) ht h1 h2).mono ?_ (fun _ h => h.elim) (fun h => h)
    rintro t' ⟨ht', ha⟩
    refine ⟨ht', fun k hk => ?_, fun l hl1 hl2 => ?_⟩
    · by_cases e : k = n
      · subst e
        refine ⟨b, hbn, by rw [ha, put_same], ?_⟩
        rw [ha, put_other (by intro h; cases h; exact hne rfl), put_same]
      · obtain ⟨c, hc1, hc2, hc3⟩ := hb k (by omega)
        have e1 : ∀ z : C, (x, k) ≠ (z, n) := by intro z h; cases h; exact e rfl
        have e2 : ∀ z : C, (y, k) ≠ (z, n) := by intro z h; cases h; exact e rfl
        exact ⟨c, hc1, by rw [ha, put_other (e1 _), put_other (e1 _), hc2],
          by rw [ha, put_other (e2 _), put_other (e2 _), hc3]⟩
    · rw [ha, put_other (by rintro rfl; exact hl1 ⟨rfl, by simp⟩), put_other (by rintro rfl; exact hl2 ⟨rfl, by simp⟩),
        ho l (fun h => hl1 ⟨h.1, by omega⟩) (fun h => hl2 ⟨h.1, by omega⟩)]
  · intro k t hk h; exact h.elim

theorem destroy_ends (B : ∀ k, Behaves tr (T k) abs Ok (H k)) {x : C} {s : S} (es : Nat → Env)
    (hs : Ok s) (hl : CLive K (abs s) x) :
    Ends (call H K (.destroy x) es s) (fun s' => Ok s' ∧ CDead (abs s') x ∧ CSame (abs s) (abs s') [x])
      (fun _ => False) False := by
  refine (dropAll_ends B x es K hs fun j hj => (hl j).1 hj).mono ?_ (fun _ h => h) (fun h => h)
  rintro s' ⟨h1, h2, h3⟩
  refine ⟨h1, fun k => ?_, fun z hz k => h3 _ (fun h => hz (List.mem_singleton.2 h.1))⟩
  by_cases e : k < K
  · exact h2 k e
  · rw [h3 _ (fun h => e h.2)]
    cases hx : abs s (x, k) with
    | none => rfl
    | some b => exact absurd ((hl k).2 ⟨b, hx⟩) e

theorem assignCopy_ends (B : ∀ k, Behaves tr (T k) abs Ok (H k)) {x y : C} {s : S} (es : Nat → Env) (hne : x ≠ y)
    (hs : Ok s) (hx : CLive K (abs s) x) (hy : CLive K (abs s) y) :
    Ends (call H K (.assignCopy x y) es s)
      (fun s' => Ok s' ∧ CopyAssigned tr T (abs s) (abs s') x y K ∧ ∀ l, Outside x K l → abs s' l = abs s l)
      (fun s' => Ok s' ∧ ∃ j, j < K ∧ CopyAssigned tr T (abs s) (abs s') x y j ∧
        (∃ a a', abs s (x, j) = some a ∧ abs s' (x, j) = some a' ∧ a'.alloc = a.alloc ∧ a'.val.isSome = a.val.isSome) ∧
        ∀ l, Outside x (j + 1) l → abs s' l = abs s l) False := by
  refine each_ends (P := fun n s' => Ok s' ∧ CopyAssigned tr T (abs s) (abs s') x y n ∧
    ∀ l, Outside x n l → abs s' l = abs s l) ⟨hs, by simp [CopyAssigned], fun _ _ => rfl⟩ ?_
  rintro n t hn ⟨ht, hb, ho⟩
  obtain ⟨a, ha⟩ := (hx n).1 hn
  obtain ⟨b, hbb⟩ := (hy n).1 hn
  have e1 : abs t (x, n) = some a := by rw [ho _ (by simp [Outside]), ha]
  have e2 : abs t (y, n) = some b := by rw [ho _ (by simp [Outside]), hbb]
  have keep : ∀ {t' a'}, abs t' = put (abs t) (x, n) a' → CopyAssigned tr T (abs s) (abs t') x y n ∧
      ∀ l, Outside x (n + 1) l → abs t' l = abs s l := by
    intro t' a' ht'
    refine ⟨fun k hk => ?_, fun l hl => ?_⟩
    · obtain ⟨a, b, c, h1, h2, h3, h4⟩ := hb k hk
      exact ⟨a, b, c, h1, h2, h3, by rw [ht', put_other (by intro h; cases h; omega), h4]⟩
    · rw [ht', put_other (by rintro rfl; exact hl ⟨rfl, by simp⟩), ho l (fun h => hl ⟨h.1, by omega⟩)]
  refine ((B n).assignCopy (es n) ht (by intro h; cases h; exact hne rfl) e1 e2).mono ?_ ?_ (fun h => h)
  · rintro t' ⟨ht', a', hA, he⟩
    refine ⟨ht', fun k hk => ?_, (keep he).2⟩
    by_cases e : k = n
    · subst e; exact ⟨a, b, a', ha, hbb, hA, by rw [he, put_same]⟩
    · exact (keep he).1 k (by omega)
  · rintro t' ⟨ht', a', h1, h2, he⟩
    exact ⟨ht', n, hn, (keep he).1, ⟨a, a', ha, by rw [he, put_same], h1, h2⟩, (keep he).2⟩

theorem assignMove_ends (B : ∀ k, Behaves tr (T k) abs Ok (H k)) {x y : C} {s : S} (es : Nat → Env) (hne : x ≠ y)
    (hs : Ok s) (hx : CLive K (abs s) x) (hy : CLive K (abs s) y) :
    Ends (call H K (.assignMove x y) es s)
      (fun s' => Ok s' ∧ MoveAssigned tr T (abs s) (abs s') x y K ∧
        ∀ l, Outside x K l → Outside y K l → abs s' l = abs s l)
      (fun s' => Ok s' ∧ ∃ j, j < K ∧ MoveAssigned tr T (abs s) (abs s') x y j ∧
        (∃ a b b', abs s (x, j) = some a ∧ abs s (y, j) = some b ∧ tr.eq a.alloc b.alloc = false ∧
          abs s' (x, j) = some a ∧ abs s' (y, j) = some b' ∧ b'.alloc = b.alloc ∧ b'.val.isSome = b.val.isSome) ∧
        ∀ l, Outside x (j + 1) l → Outside y (j + 1) l → abs s' l = abs s l)
      ((tr.pocma || tr.alwaysEqual) = true ∧ ∃ j a b, j < K ∧ abs s (x, j) = some a ∧ abs s (y, j) = some b ∧
        tr.eq a.alloc b.alloc = false) := by
  refine each_ends (P := fun n s' => Ok s' ∧ MoveAssigned tr T (abs s) (abs s') x y n ∧
    ∀ l, Outside x n l → Outside y n l → abs s' l = abs s l) ⟨hs, by simp [MoveAssigned], fun _ _ _ => rfl⟩ ?_
  rintro n t hn ⟨ht, hb, ho⟩
  obtain ⟨a, ha⟩ := (hx n).1 hn
  obtain ⟨b, hbb⟩ := (hy n).1 hn
  have e1 : abs t (x, n) = some a := by rw [ho _ (by simp [Outside]) (by simp [Outside]), ha]
  have e2 : abs t (y, n) = some b := by rw [ho _ (by simp [Outside]) (by simp [Outside]), hbb]
  have hxy : (y, n) ≠ (x, n) := by intro h; cases h; exact hne rfl
  have keep : ∀ {t'}, (∀ l, l ≠ (x, n) → l ≠ (y, n) → abs t' l = abs t l) →
      MoveAssigned tr T (abs s) (abs t') x y n ∧
      ∀ l, Outside x (n + 1) l → Outside y (n + 1) l → abs t' l = abs s l := by
    intro t' ht'
    refine ⟨fun k hk => ?_, fun l hl1 hl2 => ?_⟩
    · obtain ⟨a, b, c, d, h1, h2, h3, h4, h5⟩ := hb k hk
      have ne : ∀ z w : C, (z, k) ≠ (w, n) := by intro z w h; cases h; omega
      exact ⟨a, b, c, d, h1, h2, h3, by rw [ht' _ (ne _ _) (ne _ _), h4], by rw [ht' _ (ne _ _) (ne _ _), h5]⟩
    · rw [ht' l (by rintro rfl; exact hl1 ⟨rfl, by simp⟩) (by rintro rfl; exact hl2 ⟨rfl, by simp⟩),
        ho l (fun h => hl1 ⟨h.1, by omega⟩) (fun h => hl2 ⟨h.1, by omega⟩)]
  refine ((B n).assignMove (es n) ht hxy.symm e1 e2).mono ?_ ?_ ?_
  · rintro t' ⟨ht', a', b', hA, he⟩
    have he' : ∀ l, l ≠ (x, n) → l ≠ (y, n) → abs t' l = abs t l := by
      intro l h1 h2; rw [he, put_other h1, put_other h2]
    refine ⟨ht', fun k hk => ?_, (keep he').2⟩
    by_cases e : k = n
    · subst e
      exact ⟨a, b, a', b', ha, hbb, hA, by rw [he, put_same], by rw [he, put_other hxy, put_same]⟩
    · exact (keep he').1 k (by omega)
  · rintro t' ⟨ht', hq, b', h1, h2, he⟩
    have he' : ∀ l, l ≠ (x, n) → l ≠ (y, n) → abs t' l = abs t l := by
      intro l _ h2; rw [he, put_other h2]
    exact ⟨ht', n, hn, (keep he').1, ⟨a, b, b', ha, hbb, hq, by rw [he, put_other hxy.symm, e1], by rw [he, put_same], h1, h2⟩,
      (keep he').2⟩
  · rintro ⟨h1, h2⟩
    exact ⟨h2, n, a, b, hn, ha, hbb, h1⟩

theorem assignSelf_ends (B : ∀ k, Behaves tr (T k) abs Ok (H k)) {x : C} {s : S} (es : Nat → Env)
    (hs : Ok s) (hx : CLive K (abs s) x) :
    Ends (call H K (.assignCopy x x) es s) (fun s' => Ok s' ∧ abs s' = abs s) (fun _ => False) False ∧
    Ends (call H K (.assignMove x x) es s) (fun s' => Ok s' ∧ abs s' = abs s) (fun _ => False) False := by
  constructor <;>
  · refine each_ends (P := fun n s' => Ok s' ∧ abs s' = abs s) ⟨hs, rfl⟩ ?_
    rintro n t hn ⟨ht, he⟩
    obtain ⟨a, ha⟩ := (hx n).1 hn
    have := (B n).assignSelf (x := (x, n)) (b := a) (es n) ht (by rw [he, ha])
    first
    | refine this.1.mono ?_ (fun _ h => h) (fun h => h)
      rintro t' ⟨h1, h2⟩; exact ⟨h1, by rw [h2, he]⟩
    | refine this.2.mono ?_ (fun _ h => h) (fun h => h)
      rintro t' ⟨h1, h2⟩; exact ⟨h1, by rw [h2, he]⟩

theorem modify_ends (B : ∀ k, Behaves tr (T k) abs Ok (H k)) {x : C} {k : Nat} {s : S} {a : A} {v : W} (f : F)
    (es : Nat → Env) (hs : Ok s) (hx : abs s (x, k) = some ⟨a, some v⟩) :
    Ends (call H K (.modify x k f) es s)
      (fun s' => Ok s' ∧ abs s' (x, k) = some ⟨a, some ((H k).app f v)⟩ ∧ ∀ l, l ≠ (x, k) → abs s' l = abs s l)
      (fun _ => False) False := by
  refine ((B k).modify f (es k) hs hx).mono ?_ (fun _ h => h) (fun h => h)
  rintro s' ⟨h1, h2⟩
  exact ⟨h1, by rw [h2, put_same], fun l hl => by rw [h2, put_other hl]⟩

/-! ## Reachable states -/

theorem whole_of {σ σ' : Comp C A W} (h : Whole K σ) (x : C) (hx : CDead σ' x ∨ CLive K σ' x)
    (ho : ∀ z k, z ≠ x → (σ' (z, k)).isSome = (σ (z, k)).isSome) : Whole K σ' := by
  intro z
  by_cases e : z = x
  · subst e; exact hx
  · rcases h z with h | h
    · left; intro k
      have := ho z k e
      rw [h k] at this
      simpa using this
    · right; intro k
      rw [h k, ← Option.isSome_iff_exists, ← Option.isSome_iff_exists, ho z k e]

theorem whole_same {σ σ' : Comp C A W} (h : Whole K σ)
    (ho : ∀ l, (σ' l).isSome = (σ l).isSome) : Whole K σ' := by
  intro z
  rcases h z with h | h
  · left; intro k
    have := ho (z, k)
    rw [h k] at this
    simpa using this
  · right; intro k
    rw [h k, ← Option.isSome_iff_exists, ← Option.isSome_iff_exists, ho (z, k)]

theorem live_of {σ σ' : Comp C A W} {x : C} (hd : CDead σ x) (h : ∀ k, k < K → ∃ b, σ' (x, k) = some b)
    (ho : ∀ l, Outside x K l → l.1 = x → σ' l = σ l) : CLive K σ' x := by
  intro k
  refine ⟨h k, fun ⟨b, hb⟩ => ?_⟩
  apply Classical.byContradiction
  intro e
  rw [ho (x, k) (fun h => e h.2) rfl, hd k] at hb
  cases hb

/-- Every legal operation ends normally, with an exception or in `std::terminate`, and leaves objects whole. -/
theorem call_ends (B : ∀ k, Behaves tr (T k) abs Ok (H k)) {s : S} (o : COp C I F) (es : Nat → Env) (hs : Ok s)
    (hw : Whole K (abs s)) (hl : CLegal K (abs s) o) :
    Ends (call H K o es s) (fun s' => Ok s' ∧ Whole K (abs s')) (fun s' => Ok s' ∧ Whole K (abs s')) True := by
  cases o with
  | make x is =>
    refine (make_ends B is es hs hl).mono ?_ ?_ False.elim
    · rintro s' ⟨h1, h2, h3⟩
      refine ⟨h1, whole_of hw x (.inr ?_) fun z k hz => by rw [h3 _ (fun h => hz h.1)]⟩
      exact live_of hl (fun k hk => let ⟨a, v, h⟩ := h2 k hk; ⟨_, h⟩) fun l h _ => h3 l h
    · rintro s' ⟨h1, h2⟩; exact ⟨h1, h2 ▸ hw⟩
  | copy x y =>
    refine (copy_ends B es hs hl.1 hl.2).mono ?_ ?_ False.elim
    · rintro s' ⟨h1, h2, h3⟩
      refine ⟨h1, whole_of hw x (.inr ?_) fun z k hz => by rw [h3 _ (fun h => hz h.1)]⟩
      exact live_of hl.1 (fun k hk => let ⟨_, b', _, _, h⟩ := h2 k hk; ⟨b', h⟩) fun l h _ => h3 l h
    · rintro s' ⟨h1, h2⟩; exact ⟨h1, h2 ▸ hw⟩
  | move x y =>
    refine (move_ends B es hs hl.1 hl.2).mono ?_ (fun _ => False.elim) False.elim
    rintro s' ⟨h1, h2, h3⟩
    by_cases hK : 0 < K
    · have hne := live_ne hK hl.1 hl.2
      refine ⟨h1, whole_of hw x (.inr ?_) fun z k hz => ?_⟩
      · refine live_of hl.1 (fun k hk => let ⟨b, _, h, _⟩ := h2 k hk; ⟨b, h⟩) fun l h e => h3 l h ?_
        exact fun h' => hne (h'.1.symm.trans e)
      · by_cases e : z = y ∧ k < K
        · obtain ⟨rfl, hk⟩ := e
          obtain ⟨b, e1, _, e3⟩ := h2 k hk
          rw [e1, e3]; rfl
        · rw [h3 (z, k) (fun h => hz h.1) e]
    · have : abs s' = abs s := by
        funext l; exact h3 l (fun h => hK (by have := h.2; omega)) (fun h => hK (by have := h.2; omega))
      exact ⟨h1, this ▸ hw⟩
  | destroy x =>
    refine (destroy_ends B es hs hl).mono ?_ (fun _ => False.elim) False.elim
    rintro s' ⟨h1, h2, h3⟩
    exact ⟨h1, whole_of hw x (.inl h2) fun z k hz => by rw [h3 z (by simp [hz]) k]⟩
  | assignCopy x y =>
    by_cases hne : x = y
    · subst hne
      refine (assignSelf_ends B es hs hl.1).1.mono ?_ (fun _ => False.elim) False.elim
      rintro s' ⟨h1, h2⟩; exact ⟨h1, h2 ▸ hw⟩
    refine (assignCopy_ends B es hne hs hl.1 hl.2).mono ?_ ?_ False.elim
    · rintro s' ⟨h1, h2, h3⟩
      refine ⟨h1, whole_same hw fun l => ?_⟩
      by_cases e : Outside x K l
      · rw [h3 l e]
      · obtain ⟨rfl, hk⟩ := Classical.not_not.1 e
        obtain ⟨a, b, a', e1, _, _, e4⟩ := h2 l.2 hk
        rw [show l = (l.1, l.2) from rfl, e1, e4]; rfl
    · rintro s' ⟨h1, j, hj, h2, ⟨a, a', e1, e2, _, _⟩, h3⟩
      refine ⟨h1, whole_same hw fun l => ?_⟩
      by_cases e : Outside x (j + 1) l
      · rw [h3 l e]
      · obtain ⟨rfl, hk⟩ := Classical.not_not.1 e
        by_cases e' : l.2 = j
        · subst e'; rw [show l = (l.1, l.2) from rfl, e1, e2]; rfl
        · obtain ⟨a, b, a', e1, _, _, e4⟩ := h2 l.2 (by omega)
          rw [show l = (l.1, l.2) from rfl, e1, e4]; rfl
  | assignMove x y =>
    by_cases hne : x = y
    · subst hne
      refine (assignSelf_ends B es hs hl.1).2.mono ?_ (fun _ => False.elim) False.elim
      rintro s' ⟨h1, h2⟩; exact ⟨h1, h2 ▸ hw⟩
    have moved : ∀ {s' : S} {n : Nat}, MoveAssigned tr T (abs s) (abs s') x y n → ∀ l, ¬ (Outside x n l ∧ Outside y n l) →
        (abs s' l).isSome = (abs s l).isSome := by
      intro s' n h l hl
      have hl : (l.1 = x ∧ l.2 < n) ∨ (l.1 = y ∧ l.2 < n) := by
        simp only [Outside] at hl
        apply Classical.byContradiction; intro h'; exact hl ⟨fun h => h' (.inl h), fun h => h' (.inr h)⟩
      rcases hl with ⟨rfl, hk⟩ | ⟨rfl, hk⟩
      · obtain ⟨a, b, a', b', e1, e2, _, e3, e4⟩ := h l.2 hk
        rw [show l = (l.1, l.2) from rfl, e1, e3]; rfl
      · obtain ⟨a, b, a', b', e1, e2, _, e3, e4⟩ := h l.2 hk
        rw [show l = (l.1, l.2) from rfl, e2, e4]; rfl
    refine (assignMove_ends B es hne hs hl.1 hl.2).mono ?_ ?_ (fun _ => trivial)
    · rintro s' ⟨h1, h2, h3⟩
      refine ⟨h1, whole_same hw fun l => ?_⟩
      by_cases e : Outside x K l ∧ Outside y K l
      · rw [h3 l e.1 e.2]
      · exact moved h2 l e
    · rintro s' ⟨h1, j, hj, h2, ⟨a, b, b', e1, e2, _, e3, e4, _, _⟩, h3⟩
      refine ⟨h1, whole_same hw fun l => ?_⟩
      by_cases e : Outside x j l ∧ Outside y j l
      · by_cases f : l = (x, j)
        · rw [f, e1, e3]
        · by_cases g : l = (y, j)
          · rw [g, e2, e4]; rfl
          · rw [h3 l ?_ ?_]
            · rintro ⟨rfl, h⟩
              have : ¬ l.2 < j := fun h => e.1 ⟨rfl, h⟩
              exact f (by rw [show l = (l.1, l.2) from rfl, show l.2 = j by omega])
            · rintro ⟨rfl, h⟩
              have : ¬ l.2 < j := fun h => e.2 ⟨rfl, h⟩
              exact g (by rw [show l = (l.1, l.2) from rfl, show l.2 = j by omega])
      · exact moved h2 l e
  | modify x k f =>
    obtain ⟨v, hv⟩ := hl
    simp only [valueOf] at hv
    cases hb : abs s (x, k) with
    | none => simp [hb] at hv
    | some b =>
      obtain ⟨a, val⟩ := b
      simp [hb] at hv
      subst hv
      refine (modify_ends B f es hs hb).mono ?_ (fun _ => False.elim) False.elim
      rintro s' ⟨h1, h2, h3⟩
      refine ⟨h1, whole_same hw fun l => ?_⟩
      by_cases e : l = (x, k)
      · rw [e, h2, hb]; rfl
      · rw [h3 l e]

theorem Reach.ok (B : ∀ k, Behaves tr (T k) abs Ok (H k)) {init s : S} (h0 : Ok init) (hd : ∀ l, abs init l = none)
    (h : Reach H K abs init s) : Ok s ∧ Whole K (abs s) := by
  induction h with
  | init => exact ⟨h0, fun x => .inl fun k => hd _⟩
  | ret o es _ hl hc ih => have := call_ends B o es ih.1 ih.2 hl; rw [hc] at this; exact this
  | threw o es e _ hl hc ih => have := call_ends B o es ih.1 ih.2 hl; rw [hc] at this; exact this

end
end Verif.Composite
