import Verif.Spec.Variant
import Verif.Proofs.CompositeLaws

/-! Variants with indirect alternatives: what each operation does to variants as values. -/

set_option autoImplicit false
set_option linter.unusedSectionVars false
set_option linter.unusedSimpArgs false

namespace Verif.Variant
open Verif Spec

section
variable {C S A R W X I_ F N Y : Type} [DecidableEq C]
variable {H : Composite.Members C S W I_ F} {P : Plain N Y} {abs : S → Comp C A W} {Ok : S → Prop}
variable {tr : ATraits A R} {T : Nat → TSpec W X} {s : VS C S N} {x y t : C} {a b : Alt N A W} {e : Env}
variable {Q E : VS C S N → Prop} {D : Prop}

/-- The alternatives of the machine are those that the variants hold. -/
structure VInv (abs : S → Comp C A W) (Ok : S → Prop) (s : VS C S N) : Prop where
  ok : Ok s.1
  sub : ∀ x k, (abs s.1 (x, k)).isSome = true ↔ s.2 x = .held k

theorem Ends.fst {m : M S Unit} {Q E : S → Prop} (h : Ends (m s.1) Q E D) :
    Ends (M.fst m s) (fun s' => Q s'.1 ∧ s'.2 = s.2) (fun s' => E s'.1 ∧ s'.2 = s.2) D := by
  unfold M.fst
  cases hm : m s.1 with
  | ok u s' => rw [hm] at h; exact ⟨h, rfl⟩
  | threw e s' => rw [hm] at h; exact ⟨h, rfl⟩
  | terminated => rw [hm] at h; exact h
  | ub u => rw [hm] at h; exact h
  | diverged => rw [hm] at h; exact h

/-! ### The variants of a state -/

theorem view_slot (I : VInv abs Ok s) (x : C) : match s.2 x with
    | .dead => variants abs s x = none
    | .valueless => variants abs s x = some .valueless
    | .plain v => variants abs s x = some (.plain v)
    | .held k => ∃ b, abs s.1 (x, k) = some b ∧ variants abs s x = some (.held k b) := by
  cases h : s.2 x with
  | held k =>
    obtain ⟨b, hb⟩ := Option.isSome_iff_exists.1 ((I.sub x k).2 h)
    exact ⟨b, hb, by simp [variants, h, hb]⟩
  | _ => simp [variants, h]

theorem slot_none (I : VInv abs Ok s) (h : variants abs s x = none) : s.2 x = .dead := by
  have := view_slot I x
  cases hs : s.2 x <;> simp [hs, h] at this
  rfl

theorem slot_valueless (I : VInv abs Ok s) (h : variants abs s x = some .valueless) : s.2 x = .valueless := by
  have := view_slot I x
  cases hs : s.2 x <;> simp [hs, h] at this
  rfl

theorem slot_plain (I : VInv abs Ok s) {v : N} (h : variants abs s x = some (.plain v)) : s.2 x = .plain v := by
  have := view_slot I x
  cases hs : s.2 x <;> simp [hs, h] at this
  rw [this]

theorem slot_held (I : VInv abs Ok s) {k : Nat} {b : Box A W} (h : variants abs s x = some (.held k b)) :
    s.2 x = .held k ∧ abs s.1 (x, k) = some b := by
  have := view_slot I x
  cases hs : s.2 x with
  | held j =>
    simp only [hs, h, Option.some.injEq, Alt.held.injEq] at this
    obtain ⟨c, hc, rfl, rfl⟩ := this
    exact ⟨rfl, hc⟩
  | _ => simp [hs, h] at this

/-- No object of an alternative is alive at `x`. -/
def Free (s : VS C S N) (x : C) : Prop := ∀ k, s.2 x ≠ .held k

theorem free_none (I : VInv abs Ok s) (h : Free s x) (k : Nat) : abs s.1 (x, k) = none := by
  cases hb : abs s.1 (x, k) with
  | none => rfl
  | some b => exact absurd ((I.sub x k).1 (by simp [hb])) (h k)

theorem variants_congr {s s' : VS C S N} {z : C} (h : s'.2 z = s.2 z) (hk : ∀ k, abs s'.1 (z, k) = abs s.1 (z, k)) :
    variants abs s' z = variants abs s z := by
  simp only [variants, h, hk]

/-! ### Elementary changes -/

/-- An object of alternative `k` begins to live at `x`. -/
theorem inv_hold (I : VInv abs Ok s) (h : Free s x) {m : S} {k : Nat} {b : Box A W} (hm : Ok m)
    (ha : abs m = put (abs s.1) (x, k) b) : VInv abs Ok (m, upd s.2 x (.held k)) ∧
      variants abs (m, upd s.2 x (.held k)) = vset (variants abs s) x (some (.held k b)) := by
  refine ⟨⟨hm, fun z j => ?_⟩, ?_⟩
  · simp only [ha, put]
    by_cases hz : z = x
    · subst hz
      simp only [upd_same, Slot.held.injEq]
      by_cases hj : j = k
      · subst hj; simp
      · rw [if_neg (by simp [hj]), free_none I h]
        simp; exact fun h => hj h.symm
    · rw [if_neg (by simp [hz]), upd_other _ _ hz]; exact I.sub z j
  · funext z
    by_cases hz : z = x
    · subst hz; simp [variants, vset, ha, put]
    · simp only [vset, if_neg hz]
      exact variants_congr (by simp [upd_other _ _ hz]) fun j => by simp [ha, put, hz]

/-- The object of alternative `k` at `x` changes. -/
theorem inv_change (I : VInv abs Ok s) {m : S} {k : Nat} {b : Box A W} (h : s.2 x = .held k) (hm : Ok m)
    (ha : abs m = put (abs s.1) (x, k) b) : VInv abs Ok (m, s.2) ∧
      variants abs (m, s.2) = vset (variants abs s) x (some (.held k b)) := by
  refine ⟨⟨hm, fun z j => ?_⟩, ?_⟩
  · simp only [ha, put]
    by_cases hz : (z, j) = (x, k)
    · cases hz; simp [h]
    · rw [if_neg hz]; exact I.sub z j
  · funext z
    by_cases hz : z = x
    · subst hz; simp [variants, vset, ha, put, h]
    · simp only [vset, if_neg hz]
      exact variants_congr rfl fun j => by simp [ha, put, hz]

/-- The objects of alternative `k` at `x` and `y` change. -/
theorem inv_two (I : VInv abs Ok s) (hne : x ≠ y) {m : S} {k : Nat} {b c : Box A W} (h : s.2 x = .held k)
    (h' : s.2 y = .held k) (hm : Ok m) (ha : abs m = put (put (abs s.1) (y, k) c) (x, k) b) : VInv abs Ok (m, s.2) ∧
      variants abs (m, s.2) = vset (vset (variants abs s) y (some (.held k c))) x (some (.held k b)) := by
  refine ⟨⟨hm, fun z j => ?_⟩, ?_⟩
  · simp only [ha, put]
    by_cases hz : (z, j) = (x, k)
    · cases hz; simp [h]
    · rw [if_neg hz]
      by_cases hy : (z, j) = (y, k)
      · cases hy; simp [h']
      · rw [if_neg hy]; exact I.sub z j
  · funext z
    by_cases hz : z = x
    · subst hz; simp [variants, vset, ha, put, h]
    · by_cases hy : z = y
      · subst hy; simp [variants, vset, ha, put, h', hz]
      · simp only [vset, if_neg hz, if_neg hy]
        exact variants_congr rfl fun j => by simp [ha, put, hz, hy]

theorem inv_same (I : VInv abs Ok s) {m : S} (hm : Ok m) (ha : abs m = abs s.1) : VInv abs Ok (m, s.2) ∧
    variants abs (m, s.2) = variants abs s := by
  refine ⟨⟨hm, fun z j => ?_⟩, ?_⟩
  · rw [ha]; exact I.sub z j
  · funext z; exact variants_congr rfl fun j => by simp [ha]

/-- The object of alternative `k` at `x` is destroyed. -/
theorem inv_drop (I : VInv abs Ok s) {m : S} {k : Nat} (h : s.2 x = .held k) (hm : Ok m)
    (ha : abs m = drop (abs s.1) (x, k)) : VInv abs Ok (m, upd s.2 x .valueless) ∧
      variants abs (m, upd s.2 x .valueless) = vset (variants abs s) x (some .valueless) := by
  refine ⟨⟨hm, fun z j => ?_⟩, ?_⟩
  · simp only [ha, drop]
    by_cases hz : z = x
    · subst hz
      simp only [upd_same]
      by_cases hj : j = k
      · subst hj; simp
      · rw [if_neg (by simp [hj]), I.sub, h]
        simp; exact fun h => hj h.symm
    · rw [if_neg (by simp [hz]), upd_other _ _ hz]; exact I.sub z j
  · funext z
    by_cases hz : z = x
    · subst hz; simp [variants, vset]
    · simp only [vset, if_neg hz]
      exact variants_congr (by simp [upd_other _ _ hz]) fun j => by simp [ha, drop, hz]

/-- The value of a slot that is not an indirect alternative. -/
def slotAlt : Slot N → Option (Alt N A W)
  | .valueless => some .valueless
  | .plain v => some (.plain v)
  | _ => none

theorem inv_set (I : VInv abs Ok s) (h : Free s x) {a : Slot N} (hn : ∀ k, a ≠ .held k) :
    VInv abs Ok (s.1, upd s.2 x a) ∧
      variants abs (s.1, upd s.2 x a) = vset (variants abs s) x (slotAlt a) := by
  refine ⟨⟨I.ok, fun z j => ?_⟩, ?_⟩
  · by_cases hz : z = x
    · subst hz
      simp only [upd_same, free_none I h]
      simp; exact hn j
    · simp only [upd_other _ _ hz]; exact I.sub z j
  · funext z
    by_cases hz : z = x
    · subst hz
      cases a with
      | held k => exact absurd rfl (hn k)
      | _ => simp [variants, vset, slotAlt]
    · simp only [vset, if_neg hz]
      exact variants_congr (by simp [upd_other _ _ hz]) fun j => rfl

theorem free_of (I : VInv abs Ok s) (h : variants abs s x = none ∨ variants abs s x = some .valueless ∨
    ∃ v, variants abs s x = some (.plain v)) : Free s x := by
  intro k hk
  rcases h with h | h | ⟨v, h⟩
  · rw [slot_none I h] at hk; cases hk
  · rw [slot_valueless I h] at hk; cases hk
  · rw [slot_plain I h] at hk; cases hk

theorem vset_same (σ : Variants C N A W) (x : C) (a : Option (Alt N A W)) : vset σ x a x = a := by simp [vset]

theorem vset_other (σ : Variants C N A W) {x z : C} (a : Option (Alt N A W)) (h : z ≠ x) : vset σ x a z = σ z := by
  simp [vset, h]

theorem vset_vset (σ : Variants C N A W) (x : C) (a b : Option (Alt N A W)) : vset (vset σ x a) x b = vset σ x b := by
  funext z; simp only [vset]; split <;> rfl

theorem vset_comm (σ : Variants C N A W) {x z : C} (a b : Option (Alt N A W)) (h : z ≠ x) :
    vset (vset σ x a) z b = vset (vset σ z b) x a := by
  funext w; simp only [vset]
  by_cases h1 : w = z <;> by_cases h2 : w = x <;> simp_all

theorem vset_id (σ : Variants C N A W) {x : C} {a : Option (Alt N A W)} (h : σ x = a) : vset σ x a = σ := by
  funext w; simp only [vset]; split <;> simp_all

/-! ### The parts of operations -/

variable (B : ∀ k, Behaves tr (T k) abs Ok (H k))

include B

theorem clear_ends (I : VInv abs Ok s) (hx : variants abs s x = some a) (e : Env) :
    Ends (clear H x e s) (fun s' => VInv abs Ok s' ∧ variants abs s' = vset (variants abs s) x (some .valueless))
      (fun _ => False) False := by
  show Ends (clearSlot H x e (s.2 x) s) _ _ _
  cases a with
  | valueless =>
    rw [slot_valueless I hx]
    exact ⟨I, (vset_id _ hx).symm⟩
  | plain v =>
    rw [slot_plain I hx]
    exact inv_set I (free_of I (.inr (.inr ⟨v, hx⟩))) (by simp)
  | held k b =>
    obtain ⟨h1, h2⟩ := slot_held I hx
    rw [h1]
    refine Ends.bind (Ends.mono (Ends.fst ((B k).destroy e I.ok h2)) (fun s' h => h) (fun _ h => h.1) (fun h => h)) ?_
    rintro ⟨m, f⟩ ⟨⟨hm, ha⟩, rfl⟩
    exact inv_drop I h1 hm ha

theorem destroy_ends (I : VInv abs Ok s) (hx : variants abs s x = some a) (e : Env) :
    Ends (destroy H x e s) (fun s' => VInv abs Ok s' ∧ variants abs s' = vset (variants abs s) x none)
      (fun _ => False) False := by
  refine Ends.bind (clear_ends B I hx e) fun s' ⟨I', hv⟩ => ?_
  have := inv_set (a := .dead) I' (free_of I' (.inr (.inl (by rw [hv, vset_same])))) (by simp)
  refine ⟨this.1, ?_⟩
  rw [this.2, hv, vset_vset]; rfl

/-- Copy construction of the object that `x` holds. -/
theorem copyInto_ends (hP : Plain.Honest P) (I : VInv abs Ok s) (hf : Free s x) (hy : variants abs s y = some b) (e : Env) :
    Ends (copyInto H P x y e s)
      (fun s' => VInv abs Ok s' ∧ ∃ b', AltCopy tr T P b b' ∧ variants abs s' = vset (variants abs s) x (some b'))
      (fun s' => VInv abs Ok s' ∧ variants abs s' = variants abs s ∧ b ≠ .valueless ∧
        ∀ v, b = .plain v → P.nothrowCopy = false) False := by
  show Ends ((match s.2 y with
    | .held k => do
      M.fst ((H k).copy (x, k) (y, k) e)
      set x (.held k)
    | .plain v => M.noexceptIf P.nothrowCopy (finishPlain x (P.ops.copy v (e.choice 0)))
    | .valueless => set x .valueless
    | .dead => M.undef .deadObject : M (VS C S N) Unit) s) _ _ _
  cases b with
  | valueless =>
    rw [slot_valueless I hy]
    have := inv_set (a := .valueless) I hf (by simp)
    exact ⟨this.1, _, rfl, this.2⟩
  | plain v =>
    rw [slot_plain I hy]
    simp only
    cases hc : P.ops.copy v (e.choice 0) with
    | ok w =>
      have := inv_set (a := .plain w) I hf (by simp)
      exact ⟨this.1, _, ⟨_, _, hc, rfl⟩, this.2⟩
    | error x' =>
      cases hn : P.nothrowCopy with
      | true => obtain ⟨w, hw⟩ := hP.copy hn v (e.choice 0); rw [hc] at hw; cases hw
      | false => exact ⟨I, rfl, by simp, fun _ _ => rfl⟩
  | held k c =>
    obtain ⟨h1, h2⟩ := slot_held I hy
    rw [h1]
    refine Ends.bind (Ends.mono (Ends.fst ((B k).copy (x := (x, k)) e I.ok (free_none I hf k) h2)) (fun s' h => h) ?_
      (fun h => h)) ?_
    · rintro ⟨m, f⟩ ⟨⟨hm, ha⟩, rfl⟩
      have := inv_same I hm ha
      exact ⟨this.1, this.2, by simp, fun _ h => nomatch h⟩
    · rintro ⟨m, f⟩ ⟨⟨hm, b', hb', ha⟩, rfl⟩
      have := inv_hold I hf hm ha
      exact ⟨this.1, _, ⟨b', hb', rfl⟩, this.2⟩

/-- Move construction of the object that `x` holds. -/
theorem moveInto_ends (hP : Plain.Honest P) (I : VInv abs Ok s) (hf : Free s x) (hne : x ≠ y)
    (hy : variants abs s y = some b) (e : Env) :
    Ends (moveInto H P x y e s)
      (fun s' => VInv abs Ok s' ∧ ∃ a' b', AltMove P b a' b' ∧
        variants abs s' = vset (vset (variants abs s) y (some b')) x (some a'))
      (fun s' => VInv abs Ok s' ∧ ∃ b', AltMoveThrew P b b' ∧ variants abs s' = vset (variants abs s) y (some b'))
      False := by
  show Ends ((match s.2 y with
    | .held k => do
      M.fst ((H k).move (x, k) (y, k) e)
      set x (.held k)
    | .plain v => do
      set y (.plain (P.ops.move v (e.choice 0)).2)
      M.noexceptIf P.nothrowMove (finishPlain x (P.ops.move v (e.choice 0)).1)
    | .valueless => set x .valueless
    | .dead => M.undef .deadObject : M (VS C S N) Unit) s) _ _ _
  cases b with
  | valueless =>
    rw [slot_valueless I hy]
    have := inv_set (a := .valueless) I hf (by simp)
    refine ⟨this.1, _, _, ⟨rfl, rfl⟩, ?_⟩
    rw [this.2, vset_id _ hy]; rfl
  | plain v =>
    rw [slot_plain I hy]
    have J := inv_set (a := .plain (P.ops.move v (e.choice 0)).2) I (free_of I (.inr (.inr ⟨v, hy⟩))) (by simp)
    refine Ends.bind (P := fun s' => s' = (s.1, upd s.2 y (.plain (P.ops.move v (e.choice 0)).2))) rfl ?_
    rintro _ rfl
    have hf' : Free (s.1, upd s.2 y (.plain (P.ops.move v (e.choice 0)).2)) x := by
      intro k; simp only [upd_other _ _ hne]; exact hf k
    cases hc : (P.ops.move v (e.choice 0)).1 with
    | ok w =>
      have K := inv_set (a := .plain w) J.1 hf' (by simp)
      refine ⟨K.1, _, _, ⟨_, w, _, Prod.ext hc rfl, rfl, rfl⟩, ?_⟩
      exact K.2.trans (by rw [J.2]; rfl)
    | error x' =>
      cases hn : P.nothrowMove with
      | true => obtain ⟨w, hw⟩ := hP.move hn v (e.choice 0); rw [hc] at hw; cases hw
      | false => exact ⟨J.1, _, ⟨hn, _, _, _, Prod.ext hc rfl, rfl⟩, J.2⟩
  | held k c =>
    obtain ⟨h1, h2⟩ := slot_held I hy
    rw [h1]
    refine Ends.bind (Ends.mono (Ends.fst ((B k).move (x := (x, k)) e I.ok (free_none I hf k) h2)) (fun s' h => h)
      (fun _ h => h.1.elim) (fun h => h)) ?_
    rintro ⟨m, f⟩ ⟨⟨hm, ha⟩, rfl⟩
    -- as if `y` changed first
    refine ⟨⟨hm, fun z j => ?_⟩, _, _, ⟨rfl, rfl⟩, ?_⟩
    · simp only [ha, put]
      by_cases hz : z = x
      · subst hz
        simp only [upd_same, Slot.held.injEq]
        by_cases hj : j = k
        · subst hj; simp
        · rw [if_neg (by simp [hj]), if_neg (by simp [hne]), free_none I hf]
          simp; exact fun h => hj h.symm
      · rw [if_neg (by simp [hz]), upd_other _ _ hz]
        by_cases hzy : (z, j) = (y, k)
        · cases hzy; simp [h1]
        · rw [if_neg hzy]; exact I.sub z j
    · funext z
      by_cases hz : z = x
      · subst hz; simp [variants, vset, ha, put]
      · by_cases hzy : z = y
        · subst hzy
          simp [variants, vset, upd_other _ _ hz, h1, ha, put, hz]
        · simp only [vset, if_neg hz, if_neg hzy]
          exact variants_congr (by simp [upd_other _ _ hz]) fun j => by simp [ha, put, hz, hzy]

/-- A new object of another alternative is moved into `x`. -/
theorem emplaceMove_ends (hP : Plain.Honest P) (I : VInv abs Ok s) (hne : x ≠ y) (hx : variants abs s x = some a)
    (hy : variants abs s y = some b) (es : Nat → Env) :
    Ends (emplaceMove H P x y es s)
      (fun s' => VInv abs Ok s' ∧ ∃ a' b', AltMove P b a' b' ∧
        variants abs s' = vset (vset (variants abs s) y (some b')) x (some a'))
      (fun s' => VInv abs Ok s' ∧ ∃ b', AltMoveThrew P b b' ∧
        variants abs s' = vset (vset (variants abs s) y (some b')) x (some .valueless)) False := by
  refine Ends.bind ((clear_ends B I hx (es 1)).mono (fun _ h => h) (fun _ h => h.elim) (fun h => h)) ?_
  rintro s' ⟨I', hv⟩
  refine (moveInto_ends B hP I' (free_of I' (.inr (.inl (by rw [hv, vset_same])))) hne
    (by rw [hv, vset_other _ _ hne.symm, hy]) (es 2)).mono ?_ ?_ (fun h => h)
  · rintro s'' ⟨I'', a', b', hm, hv'⟩
    refine ⟨I'', a', b', hm, ?_⟩
    rw [hv', hv, vset_comm _ _ _ hne.symm, vset_vset]
  · rintro s'' ⟨I'', b', hm, hv'⟩
    refine ⟨I'', b', hm, ?_⟩
    rw [hv', hv, vset_comm _ _ _ hne.symm]

/-- A copy is constructed in `x` after its object is destroyed. -/
theorem emplaceCopy_ends (hP : Plain.Honest P) (I : VInv abs Ok s) (hne : x ≠ y) (hx : variants abs s x = some a)
    (hy : variants abs s y = some b) (es : Nat → Env) :
    Ends (emplaceCopy H P x y es s)
      (fun s' => VInv abs Ok s' ∧ ∃ b', AltCopy tr T P b b' ∧ variants abs s' = vset (variants abs s) x (some b'))
      (fun s' => VInv abs Ok s' ∧ (∀ v, b = .plain v → P.nothrowCopy = false) ∧
        variants abs s' = vset (variants abs s) x (some .valueless)) False := by
  refine Ends.bind ((clear_ends B I hx (es 1)).mono (fun _ h => h) (fun _ h => h.elim) (fun h => h)) ?_
  rintro s' ⟨I', hv⟩
  refine (copyInto_ends B hP I' (free_of I' (.inr (.inl (by rw [hv, vset_same]))))
    (by rw [hv, vset_other _ _ hne.symm, hy]) (es 0)).mono ?_ ?_ (fun h => h)
  · rintro s'' ⟨I'', b', hm, hv'⟩
    exact ⟨I'', b', hm, by rw [hv', hv, vset_vset]⟩
  · rintro s'' ⟨I'', hv', -, hm⟩
    exact ⟨I'', hm, by rw [hv', hv]⟩

/-- Assignment by a temporary: an exception changes nothing. -/
theorem viaTemp_ends (hP : Plain.Honest P) (I : VInv abs Ok s) (hxt : x ≠ t) (hyt : y ≠ t)
    (hx : variants abs s x = some a) (hy : variants abs s y = some b) (ht : variants abs s t = none)
    (hm : ∀ v, b = .plain v → P.nothrowMove = true) (es : Nat → Env) :
    Ends (viaTemp H P x y t es s)
      (fun s' => VInv abs Ok s' ∧ ∃ c a' c', AltCopy tr T P b c ∧ AltMove P c a' c' ∧
        variants abs s' = vset (variants abs s) x (some a'))
      (fun s' => VInv abs Ok s' ∧ variants abs s' = variants abs s) False := by
  refine Ends.bind ((copyInto_ends B hP I (free_of I (.inl ht)) hy (es 0)).mono (fun _ h => h)
    (fun _ h => ⟨h.1, h.2.1⟩) (fun h => h)) ?_
  rintro s₁ ⟨I₁, c, hc, hv₁⟩
  have h1 := emplaceMove_ends B hP I₁ hxt (by rw [hv₁, vset_other _ _ hxt, hx]) (by rw [hv₁, vset_same]) es
  have hnt : ∀ b', ¬ AltMoveThrew P c b' := by
    intro b' hb'
    cases c with
    | plain w =>
      cases b with
      | plain v => have := hm v rfl; rw [hb'.1] at this; cases this
      | valueless => cases hc
      | held k d => obtain ⟨_, _, h⟩ := hc; cases h
    | _ => exact hb'
  have h2 : Ends (M.onThrow (emplaceMove H P x t es) (destroy H t (es 3)) s₁)
      (fun s' => VInv abs Ok s' ∧ ∃ a' c', AltMove P c a' c' ∧
        variants abs s' = vset (vset (variants abs s₁) t (some c')) x (some a'))
      (fun s' => VInv abs Ok s' ∧ variants abs s' = variants abs s) False :=
    Ends.onThrow (h1.mono (fun _ h => h) (fun s' h => (hnt _ h.2.choose_spec.1).elim) (fun h => h))
      (P := fun _ => False) (fun _ h => h.elim)
  refine Ends.bind h2 ?_
  rintro s₂ ⟨I₂, a', c', hmv, hv₂⟩
  refine (destroy_ends B I₂ (a := c') (by rw [hv₂, vset_other _ _ hxt.symm, vset_same]) (es 3)).mono ?_
    (fun _ h => h.elim) (fun h => h)
  rintro s₃ ⟨I₃, hv₃⟩
  refine ⟨I₃, c, a', c', hc, hmv, ?_⟩
  rw [hv₃, hv₂, hv₁, vset_comm _ _ _ hxt.symm, vset_vset, vset_vset, vset_id _ ht]

/-! ### Operations -/

theorem make_held_ends (I : VInv abs Ok s) (hx : variants abs s x = none) (k : Nat) (i : I_) (es : Nat → Env) :
    Ends (call H P (.makeHeld x k i) es s)
      (fun s' => VInv abs Ok s' ∧ ∃ c v, variants abs s' = vset (variants abs s) x (some (.held k ⟨c, some v⟩)))
      (fun s' => VInv abs Ok s' ∧ variants abs s' = variants abs s) False := by
  refine Ends.bind (P := fun s' => s' = s) ?_ ?_
  · show Ends (unborn x s) _ _ _
    simp [unborn, look, bind, M.andThen, slot_none I hx, pure, M.ret, Ends]
  rintro _ rfl
  have hf := free_of I (.inl hx)
  refine Ends.bind (Ends.mono (Ends.fst ((B k).make (x := (x, k)) i (es 0) I.ok (free_none I hf k))) (fun s' h => h) ?_
    (fun h => h)) ?_
  · rintro ⟨m, f⟩ ⟨⟨hm, ha⟩, rfl⟩
    exact inv_same I hm ha
  · rintro ⟨m, f⟩ ⟨⟨hm, c, v, ha⟩, rfl⟩
    have := inv_hold I hf hm ha
    exact ⟨this.1, c, v, this.2⟩

omit B in
theorem unborn_ends (I : VInv abs Ok s) (hx : variants abs s x = none) :
    Ends (unborn x s) (fun s' => s' = s) (fun _ => False) False := by
  simp [unborn, look, bind, M.andThen, slot_none I hx, pure, M.ret, Ends]

omit B in
theorem finishPlain_ends (I : VInv abs Ok s) (hf : Free s x) (r : Except Exn N) :
    Ends (finishPlain x r s)
      (fun s' => VInv abs Ok s' ∧ ∃ v, r = .ok v ∧ variants abs s' = vset (variants abs s) x (some (.plain v)))
      (fun s' => VInv abs Ok s' ∧ variants abs s' = variants abs s) False := by
  cases r with
  | ok v =>
    have := inv_set (a := .plain v) I hf (by simp)
    exact ⟨this.1, v, rfl, this.2⟩
  | error e => exact ⟨I, rfl⟩

omit B in
theorem make_plain_ends (I : VInv abs Ok s) (hx : variants abs s x = none) (args : TArgs Y) (es : Nat → Env) :
    Ends (call H P (.makePlain x args) es s)
      (fun s' => VInv abs Ok s' ∧ ∃ n v, P.ops.make args n = .ok v ∧
        variants abs s' = vset (variants abs s) x (some (.plain v)))
      (fun s' => VInv abs Ok s' ∧ variants abs s' = variants abs s) False := by
  refine Ends.bind ((unborn_ends I hx).mono (fun _ h => h) (fun _ h => h.elim) (fun h => h)) ?_
  rintro _ rfl
  refine (finishPlain_ends I (free_of I (.inl hx)) _).mono ?_ (fun _ h => h) (fun h => h)
  rintro s' ⟨h1, v, h2, h3⟩
  exact ⟨h1, _, v, h2, h3⟩

theorem copy_ends (hP : Plain.Honest P) (I : VInv abs Ok s) (hx : variants abs s x = none)
    (hy : variants abs s y = some b) (es : Nat → Env) :
    Ends (call H P (.copy x y) es s)
      (fun s' => VInv abs Ok s' ∧ ∃ b', AltCopy tr T P b b' ∧ variants abs s' = vset (variants abs s) x (some b'))
      (fun s' => VInv abs Ok s' ∧ variants abs s' = variants abs s) False := by
  refine Ends.bind ((unborn_ends I hx).mono (fun _ h => h) (fun _ h => h.elim) (fun h => h)) ?_
  rintro _ rfl
  exact (copyInto_ends B hP I (free_of I (.inl hx)) hy (es 0)).mono (fun _ h => h) (fun _ h => ⟨h.1, h.2.1⟩) (fun h => h)

theorem move_ends (hP : Plain.Honest P) (I : VInv abs Ok s) (hx : variants abs s x = none)
    (hy : variants abs s y = some b) (es : Nat → Env) :
    Ends (call H P (.move x y) es s)
      (fun s' => VInv abs Ok s' ∧ ∃ a' b', AltMove P b a' b' ∧
        variants abs s' = vset (vset (variants abs s) y (some b')) x (some a'))
      (fun s' => VInv abs Ok s' ∧ ∃ b', AltMoveThrew P b b' ∧ variants abs s' = vset (variants abs s) y (some b'))
      False := by
  refine Ends.bind ((unborn_ends I hx).mono (fun _ h => h) (fun _ h => h.elim) (fun h => h)) ?_
  rintro _ rfl
  exact moveInto_ends B hP I (free_of I (.inl hx)) (by rintro rfl; rw [hx] at hy; cases hy) hy (es 0)

theorem emplace_held_ends (I : VInv abs Ok s) (hx : variants abs s x = some a) (k : Nat) (i : I_) (es : Nat → Env) :
    Ends (call H P (.emplaceHeld x k i) es s)
      (fun s' => VInv abs Ok s' ∧ ∃ c v, variants abs s' = vset (variants abs s) x (some (.held k ⟨c, some v⟩)))
      (fun s' => VInv abs Ok s' ∧ variants abs s' = vset (variants abs s) x (some .valueless)) False := by
  refine Ends.bind ((clear_ends B I hx (es 1)).mono (fun _ h => h) (fun _ h => h.elim) (fun h => h)) ?_
  rintro s' ⟨I', hv⟩
  have hf := free_of I' (.inr (.inl (by rw [hv, vset_same])))
  refine Ends.bind (Ends.mono (Ends.fst ((B k).make (x := (x, k)) i (es 0) I'.ok (free_none I' hf k))) (fun s' h => h) ?_
    (fun h => h)) ?_
  · rintro ⟨m, f⟩ ⟨⟨hm, ha⟩, rfl⟩
    have := inv_same I' hm ha
    exact ⟨this.1, this.2.trans hv⟩
  · rintro ⟨m, f⟩ ⟨⟨hm, c, v, ha⟩, rfl⟩
    have := inv_hold I' hf hm ha
    exact ⟨this.1, c, v, this.2.trans (by rw [hv, vset_vset])⟩

theorem emplace_plain_ends (I : VInv abs Ok s) (hx : variants abs s x = some a) (args : TArgs Y) (es : Nat → Env) :
    Ends (call H P (.emplacePlain x args) es s)
      (fun s' => VInv abs Ok s' ∧ ∃ n v, P.ops.make args n = .ok v ∧
        variants abs s' = vset (variants abs s) x (some (.plain v)))
      (fun s' => VInv abs Ok s' ∧ variants abs s' = vset (variants abs s) x (some .valueless)) False := by
  refine Ends.bind ((clear_ends B I hx (es 1)).mono (fun _ h => h) (fun _ h => h.elim) (fun h => h)) ?_
  rintro s' ⟨I', hv⟩
  refine (finishPlain_ends I' (free_of I' (.inr (.inl (by rw [hv, vset_same])))) _).mono ?_ ?_ (fun h => h)
  · rintro s'' ⟨h1, v, h2, h3⟩
    exact ⟨h1, _, v, h2, by rw [h3, hv, vset_vset]⟩
  · rintro s'' ⟨h1, h2⟩
    exact ⟨h1, by rw [h2, hv]⟩

omit B in
theorem modify_plain_ends (I : VInv abs Ok s) {v : N} (hx : variants abs s x = some (.plain v)) (g : N → N)
    (es : Nat → Env) : Ends (call H P (.modifyPlain x g) es s)
      (fun s' => VInv abs Ok s' ∧ variants abs s' = vset (variants abs s) x (some (.plain (g v)))) (fun _ => False)
      False := by
  show Ends ((match s.2 x with
    | .plain v => set x (.plain (g v))
    | _ => M.undef .deadObject : M (VS C S N) Unit) s) _ _ _
  rw [slot_plain I hx]
  exact inv_set I (free_of I (.inr (.inr ⟨v, hx⟩))) (by simp)

theorem modify_held_ends (I : VInv abs Ok s) {k : Nat} {c : A} {v : W}
    (hx : variants abs s x = some (.held k ⟨c, some v⟩)) (f : F) (es : Nat → Env) :
    Ends (call H P (.modifyHeld x f) es s)
      (fun s' => VInv abs Ok s' ∧
        variants abs s' = vset (variants abs s) x (some (.held k ⟨c, some ((H k).app f v)⟩))) (fun _ => False)
      False := by
  show Ends ((match s.2 x with
    | .held k => M.fst ((H k).modify (x, k) f (es 0))
    | _ => M.undef .deadObject : M (VS C S N) Unit) s) _ _ _
  obtain ⟨h1, h2⟩ := slot_held I hx
  rw [h1]
  refine Ends.mono (Ends.fst ((B k).modify f (es 0) I.ok h2)) ?_ (fun _ h => h.1) (fun h => h)
  rintro ⟨m, f⟩ ⟨⟨hm, ha⟩, rfl⟩
  exact inv_change I h1 hm ha

theorem assignCopy_ends (hP : Plain.Honest P) (I : VInv abs Ok s) (hne : x ≠ y) (hx : variants abs s x = some a)
    (hy : variants abs s y = some b) (ht : variants abs s t = none) (es : Nat → Env) :
    Ends (call H P (.assignCopy x y t) es s)
      (fun s' => VInv abs Ok s' ∧ ∃ a', CopyAssigns tr T P a b a' ∧ variants abs s' = vset (variants abs s) x (some a'))
      (fun s' => VInv abs Ok s' ∧ ∃ a', CopyAssignsThrew P H a b a' ∧
        variants abs s' = vset (variants abs s) x (some a')) False := by
  show Ends (assignCopySlots H P x y t es (s.2 x) (s.2 y) s) _ _ _
  have hxt : x ≠ t := by rintro rfl; rw [hx] at ht; cases ht
  have hyt : y ≠ t := by rintro rfl; rw [hy] at ht; cases ht
  -- the two ways to assign another alternative
  have hemp : ∀ (_ : ¬ SameAlt a b) (_ : NothrowMove P H b = true → (∃ v, b = .plain v) ∧ P.nothrowCopy = true),
      Ends (emplaceCopy H P x y es s)
      (fun s' => VInv abs Ok s' ∧ ∃ a', CopyAssigns tr T P a b a' ∧ variants abs s' = vset (variants abs s) x (some a'))
      (fun s' => VInv abs Ok s' ∧ ∃ a', CopyAssignsThrew P H a b a' ∧
        variants abs s' = vset (variants abs s) x (some a')) False := by
    intro hn hm
    refine (emplaceCopy_ends B hP I hne hx hy es).mono ?_ ?_ (fun h => h)
    · rintro s' ⟨h1, b', h2, h3⟩
      exact ⟨h1, b', ⟨fun h => (hn h).elim, fun _ => .inl h2⟩, h3⟩
    · rintro s' ⟨h1, h2, h3⟩
      refine ⟨h1, _, ⟨fun h => (hn h).elim, fun _ => ?_⟩, h3⟩
      by_cases h : NothrowMove P H b = true
      · obtain ⟨⟨v, hv⟩, hc⟩ := hm h
        rw [h2 v hv] at hc; cases hc
      · rw [if_neg h]
  have htmp : ∀ (_ : ¬ SameAlt a b) (_ : NothrowMove P H b = true), Ends (viaTemp H P x y t es s)
      (fun s' => VInv abs Ok s' ∧ ∃ a', CopyAssigns tr T P a b a' ∧ variants abs s' = vset (variants abs s) x (some a'))
      (fun s' => VInv abs Ok s' ∧ ∃ a', CopyAssignsThrew P H a b a' ∧
        variants abs s' = vset (variants abs s) x (some a')) False := by
    intro hn hm
    refine (viaTemp_ends B hP I hxt hyt hx hy ht (by rintro v rfl; exact hm) es).mono ?_ ?_ (fun h => h)
    · rintro s' ⟨h1, c, a', c', h2, h3, h4⟩
      exact ⟨h1, a', ⟨fun h => (hn h).elim, fun _ => .inr ⟨c, c', h2, h3⟩⟩, h4⟩
    · rintro s' ⟨h1, h2⟩
      refine ⟨h1, a, ⟨fun h => (hn h).elim, fun _ => by rw [if_pos hm]⟩, ?_⟩
      rw [h2, vset_id _ hx]
  have hplain : ∀ v, b = .plain v → ¬ SameAlt a b →
      Ends ((if P.nothrowCopy || !P.nothrowMove then emplaceCopy H P x y es else viaTemp H P x y t es) s)
      (fun s' => VInv abs Ok s' ∧ ∃ a', CopyAssigns tr T P a b a' ∧ variants abs s' = vset (variants abs s) x (some a'))
      (fun s' => VInv abs Ok s' ∧ ∃ a', CopyAssignsThrew P H a b a' ∧
        variants abs s' = vset (variants abs s) x (some a')) False := by
    rintro v rfl hn
    by_cases hc : (P.nothrowCopy || !P.nothrowMove) = true
    · rw [if_pos hc]
      refine hemp hn fun hm => ⟨⟨v, rfl⟩, ?_⟩
      simp only [NothrowMove] at hm
      simpa [hm] using hc
    · rw [if_neg hc]
      refine htmp hn ?_
      simp at hc
      exact hc.2
  have hheld : ∀ k c, b = .held k c → ¬ SameAlt a b →
      Ends ((if !(H k).nothrowMove then emplaceCopy H P x y es else viaTemp H P x y t es) s)
      (fun s' => VInv abs Ok s' ∧ ∃ a', CopyAssigns tr T P a b a' ∧ variants abs s' = vset (variants abs s) x (some a'))
      (fun s' => VInv abs Ok s' ∧ ∃ a', CopyAssignsThrew P H a b a' ∧
        variants abs s' = vset (variants abs s) x (some a')) False := by
    rintro k c rfl hn
    cases hc : (H k).nothrowMove with
    | false => exact hemp hn fun hm => by simp [NothrowMove, hc] at hm
    | true => exact htmp hn hc
  cases b with
  | valueless =>
    rw [slot_valueless I hy]
    have : Ends (clear H x (es 0) s) (fun s' => VInv abs Ok s' ∧ ∃ a', CopyAssigns tr T P a .valueless a' ∧
        variants abs s' = vset (variants abs s) x (some a'))
      (fun s' => VInv abs Ok s' ∧ ∃ a', CopyAssignsThrew P H a .valueless a' ∧
        variants abs s' = vset (variants abs s) x (some a')) False :=
      (clear_ends B I hx (es 0)).mono (fun s' h => ⟨h.1, _, ⟨fun h => by cases a <;> exact h.elim,
        fun _ => .inl rfl⟩, h.2⟩) (fun _ h => h.elim) (fun h => h)
    cases a with
    | valueless => rw [slot_valueless I hx]; exact this
    | plain d => rw [slot_plain I hx]; exact this
    | held k c => rw [(slot_held I hx).1]; exact this
  | plain v =>
    rw [slot_plain I hy]
    cases a with
    | valueless => rw [slot_valueless I hx]; exact hplain v rfl id
    | held k c => rw [(slot_held I hx).1]; exact hplain v rfl id
    | plain d =>
      rw [slot_plain I hx]
      have J := inv_set (a := .plain (P.ops.copyAssign d v ((es 0).choice 0)).2) I (free_of I (.inr (.inr ⟨d, hx⟩)))
        (by simp)
      refine Ends.bind (P := fun s' => s' = (s.1, upd s.2 x (.plain (P.ops.copyAssign d v ((es 0).choice 0)).2))) rfl ?_
      rintro _ rfl
      cases hr : (P.ops.copyAssign d v ((es 0).choice 0)).1 with
      | none => exact ⟨J.1, _, ⟨fun _ => ⟨_, _, Prod.ext hr rfl, rfl⟩, fun h => (h trivial).elim⟩, J.2⟩
      | some e => exact ⟨J.1, _, ⟨fun _ => ⟨_, e, _, Prod.ext hr rfl, rfl⟩, fun h => (h trivial).elim⟩, J.2⟩
  | held j c =>
    rw [(slot_held I hy).1]
    cases a with
    | valueless => rw [slot_valueless I hx]; exact hheld j c rfl id
    | plain d => rw [slot_plain I hx]; exact hheld j c rfl id
    | held i d =>
      rw [(slot_held I hx).1]
      simp only [assignCopySlots]
      by_cases hij : i = j
      · subst hij
        rw [if_pos rfl]
        refine Ends.mono (Ends.fst ((B i).assignCopy (x := (x, i)) (y := (y, i)) (es 0) I.ok (by simp [hne])
          (slot_held I hx).2 (slot_held I hy).2)) ?_ ?_ (fun h => h)
        · rintro ⟨m, f⟩ ⟨⟨hm, a', ha', ha⟩, rfl⟩
          have := inv_change I (slot_held I hx).1 hm ha
          exact ⟨this.1, _, ⟨fun _ => ⟨a', ha', rfl⟩, fun h => (h rfl).elim⟩, this.2⟩
        · rintro ⟨m, f⟩ ⟨⟨hm, a', h1, h2, ha⟩, rfl⟩
          have := inv_change I (slot_held I hx).1 hm ha
          exact ⟨this.1, _, ⟨fun _ => ⟨a', h1, h2, rfl⟩, fun h => (h rfl).elim⟩, this.2⟩
      · rw [if_neg hij]; exact hheld j c rfl hij

theorem assignMove_ends (hP : Plain.Honest P) (I : VInv abs Ok s) (hne : x ≠ y) (hx : variants abs s x = some a)
    (hy : variants abs s y = some b) (es : Nat → Env) :
    Ends (call H P (.assignMove x y) es s)
      (fun s' => VInv abs Ok s' ∧ ∃ a' b', MoveAssigns tr T P a b a' b' ∧
        variants abs s' = vset (vset (variants abs s) y (some b')) x (some a'))
      (fun s' => VInv abs Ok s' ∧ ∃ a' b', MoveAssignsThrew tr P a b a' b' ∧
        variants abs s' = vset (vset (variants abs s) y (some b')) x (some a'))
      (UnequalAllocators tr a b ∧ (tr.pocma || tr.alwaysEqual) = true) := by
  show Ends (assignMoveSlots H P x y es (s.2 x) (s.2 y) s) _ _ _
  have hemp : ∀ (_ : ¬ SameAlt a b), Ends (emplaceMove H P x y es s)
      (fun s' => VInv abs Ok s' ∧ ∃ a' b', MoveAssigns tr T P a b a' b' ∧
        variants abs s' = vset (vset (variants abs s) y (some b')) x (some a'))
      (fun s' => VInv abs Ok s' ∧ ∃ a' b', MoveAssignsThrew tr P a b a' b' ∧
        variants abs s' = vset (vset (variants abs s) y (some b')) x (some a'))
      (UnequalAllocators tr a b ∧ (tr.pocma || tr.alwaysEqual) = true) := by
    intro hn
    refine (emplaceMove_ends B hP I hne hx hy es).mono ?_ ?_ (fun h => h.elim)
    · rintro s' ⟨h1, a', b', h2, h3⟩
      exact ⟨h1, a', b', ⟨fun h => (hn h).elim, fun _ => h2⟩, h3⟩
    · rintro s' ⟨h1, b', h2, h3⟩
      exact ⟨h1, _, b', ⟨fun h => (hn h).elim, fun _ => ⟨h2, rfl⟩⟩, h3⟩
  cases b with
  | valueless =>
    rw [slot_valueless I hy]
    have : Ends (clear H x (es 0) s) (fun s' => VInv abs Ok s' ∧ ∃ a' b', MoveAssigns tr T P a .valueless a' b' ∧
        variants abs s' = vset (vset (variants abs s) y (some b')) x (some a'))
      (fun s' => VInv abs Ok s' ∧ ∃ a' b', MoveAssignsThrew tr P a .valueless a' b' ∧
        variants abs s' = vset (vset (variants abs s) y (some b')) x (some a'))
      (UnequalAllocators tr a .valueless ∧ (tr.pocma || tr.alwaysEqual) = true) :=
      (clear_ends B I hx (es 0)).mono (fun s' h => ⟨h.1, _, _, ⟨fun h => by cases a <;> exact h.elim,
        fun _ => ⟨rfl, rfl⟩⟩, by rw [h.2, vset_id _ hy]⟩) (fun _ h => h.elim) (fun h => h.elim)
    cases a with
    | valueless => rw [slot_valueless I hx]; exact this
    | plain d => rw [slot_plain I hx]; exact this
    | held k c => rw [(slot_held I hx).1]; exact this
  | plain v =>
    rw [slot_plain I hy]
    cases a with
    | valueless => rw [slot_valueless I hx]; exact hemp id
    | held k c => rw [(slot_held I hx).1]; exact hemp id
    | plain d =>
      rw [slot_plain I hx]
      have J := inv_set (a := .plain (P.ops.moveAssign d v ((es 0).choice 0)).2.2) I
        (free_of I (.inr (.inr ⟨v, hy⟩))) (by simp)
      have hf : Free (s.1, upd s.2 y (.plain (P.ops.moveAssign d v ((es 0).choice 0)).2.2)) x := by
        intro k; simp only [upd_other _ _ hne, slot_plain I hx]; simp
      have K := inv_set (a := .plain (P.ops.moveAssign d v ((es 0).choice 0)).2.1) J.1 hf (by simp)
      refine Ends.bind (P := fun s' => s' = (s.1, upd s.2 y (.plain (P.ops.moveAssign d v ((es 0).choice 0)).2.2))) rfl ?_
      rintro _ rfl
      refine Ends.bind (P := fun s' => s' = (s.1, upd (upd s.2 y (.plain (P.ops.moveAssign d v ((es 0).choice 0)).2.2)) x
        (.plain (P.ops.moveAssign d v ((es 0).choice 0)).2.1))) rfl ?_
      rintro _ rfl
      rw [J.2] at K
      cases hr : (P.ops.moveAssign d v ((es 0).choice 0)).1 with
      | none => exact ⟨K.1, _, _, ⟨fun _ => ⟨_, _, _, Prod.ext hr rfl, rfl, rfl⟩, fun h => (h trivial).elim⟩, K.2⟩
      | some e => exact ⟨K.1, _, _, ⟨fun _ => ⟨_, e, _, _, Prod.ext hr rfl, rfl, rfl⟩, fun h => (h trivial).elim⟩, K.2⟩
  | held j c =>
    rw [(slot_held I hy).1]
    cases a with
    | valueless => rw [slot_valueless I hx]; exact hemp id
    | plain d => rw [slot_plain I hx]; exact hemp id
    | held i d =>
      rw [(slot_held I hx).1]
      simp only [assignMoveSlots]
      by_cases hij : i = j
      · subst hij
        rw [if_pos rfl]
        refine Ends.mono (Ends.fst ((B i).assignMove (x := (x, i)) (y := (y, i)) (es 0) I.ok (by simp [hne])
          (slot_held I hx).2 (slot_held I hy).2)) ?_ ?_ (fun h => ⟨⟨rfl, h.1⟩, h.2⟩)
        · rintro ⟨m, f⟩ ⟨⟨hm, a', b', hab, ha⟩, rfl⟩
          have := inv_two I hne (slot_held I hx).1 (slot_held I hy).1 hm ha
          exact ⟨this.1, _, _, ⟨fun _ => ⟨a', b', hab, rfl, rfl⟩, fun h => (h rfl).elim⟩, this.2⟩
        · rintro ⟨m, f⟩ ⟨⟨hm, hu, b', h1, h2, ha⟩, rfl⟩
          have := inv_change I (slot_held I hy).1 hm ha
          refine ⟨this.1, _, _, ⟨fun _ => ⟨hu, rfl, b', h1, h2, rfl⟩, fun h => (h rfl).elim⟩, ?_⟩
          exact this.2.trans (vset_id _ (by rw [vset_other _ _ hne, hx])).symm
      · rw [if_neg hij]; exact hemp hij

/-- Self-assignment. -/
theorem assignSelf_ends (I : VInv abs Ok s) (hx : variants abs s x = some a) (es : Nat → Env) :
    Ends (call H P (.assignCopy x x t) es s)
      (fun s' => VInv abs Ok s' ∧ ∃ a', variants abs s' = vset (variants abs s) x (some a') ∧
        match a with
        | .plain v => ∃ n w, P.ops.copyAssign v v n = (none, w) ∧ a' = .plain w
        | a => a' = a)
      (fun s' => VInv abs Ok s' ∧ ∃ a', variants abs s' = vset (variants abs s) x (some a') ∧
        match a with
        | .plain v => ∃ n e w, P.ops.copyAssign v v n = (some e, w) ∧ a' = .plain w
        | _ => False) False ∧
    Ends (call H P (.assignMove x x) es s)
      (fun s' => VInv abs Ok s' ∧ ∃ a', variants abs s' = vset (variants abs s) x (some a') ∧
        match a with
        | .plain v => ∃ n w v', P.ops.moveAssign v v n = (none, w, v') ∧ a' = .plain w
        | a => a' = a)
      (fun s' => VInv abs Ok s' ∧ ∃ a', variants abs s' = vset (variants abs s) x (some a') ∧
        match a with
        | .plain v => ∃ n e w v', P.ops.moveAssign v v n = (some e, w, v') ∧ a' = .plain w
        | _ => False) False := by
  refine ⟨?_, ?_⟩
  · show Ends (assignCopySlots H P x x t es (s.2 x) (s.2 x) s) _ _ _
    cases a with
    | valueless =>
      rw [slot_valueless I hx]
      exact (clear_ends B I hx (es 0)).mono (fun s' h => ⟨h.1, _, h.2, rfl⟩) (fun _ h => h.elim) (fun h => h)
    | plain v =>
      rw [slot_plain I hx]
      have J := inv_set (a := .plain (P.ops.copyAssign v v ((es 0).choice 0)).2) I (free_of I (.inr (.inr ⟨v, hx⟩)))
        (by simp)
      refine Ends.bind (P := fun s' => s' = (s.1, upd s.2 x (.plain (P.ops.copyAssign v v ((es 0).choice 0)).2))) rfl ?_
      rintro _ rfl
      cases hr : (P.ops.copyAssign v v ((es 0).choice 0)).1 with
      | none => exact ⟨J.1, _, J.2, _, _, Prod.ext hr rfl, rfl⟩
      | some e => exact ⟨J.1, _, J.2, _, e, _, Prod.ext hr rfl, rfl⟩
    | held k c =>
      obtain ⟨h1, h2⟩ := slot_held I hx
      rw [h1]
      simp only [assignCopySlots, if_true]
      refine Ends.mono (Ends.fst ((B k).assignSelf (es 0) I.ok h2).1) ?_ (fun _ h => h.1.elim) (fun h => h)
      rintro ⟨m, f⟩ ⟨⟨hm, ha⟩, rfl⟩
      have := inv_same I hm ha
      exact ⟨this.1, _, by rw [vset_id _ hx]; exact this.2, rfl⟩
  · show Ends (assignMoveSlots H P x x es (s.2 x) (s.2 x) s) _ _ _
    cases a with
    | valueless =>
      rw [slot_valueless I hx]
      exact (clear_ends B I hx (es 0)).mono (fun s' h => ⟨h.1, _, h.2, rfl⟩) (fun _ h => h.elim) (fun h => h)
    | plain v =>
      rw [slot_plain I hx]
      have hf := free_of I (.inr (.inr ⟨v, hx⟩))
      have J := inv_set (a := .plain (P.ops.moveAssign v v ((es 0).choice 0)).2.1) I hf (by simp)
      refine Ends.bind (P := fun s' => s' = (s.1, upd s.2 x (.plain (P.ops.moveAssign v v ((es 0).choice 0)).2.2))) rfl ?_
      rintro _ rfl
      refine Ends.bind (P := fun s' => s' = (s.1, upd s.2 x (.plain (P.ops.moveAssign v v ((es 0).choice 0)).2.1)))
        (by simp [Ends, set, upd_upd]) ?_
      rintro _ rfl
      cases hr : (P.ops.moveAssign v v ((es 0).choice 0)).1 with
      | none => exact ⟨J.1, _, J.2, _, _, _, Prod.ext hr rfl, rfl⟩
      | some e => exact ⟨J.1, _, J.2, _, e, _, _, Prod.ext hr rfl, rfl⟩
    | held k c =>
      obtain ⟨h1, h2⟩ := slot_held I hx
      rw [h1]
      simp only [assignMoveSlots, if_true]
      refine Ends.mono (Ends.fst ((B k).assignSelf (es 0) I.ok h2).2) ?_ (fun _ h => h.1.elim) (fun h => h)
      rintro ⟨m, f⟩ ⟨⟨hm, ha⟩, rfl⟩
      have := inv_same I hm ha
      exact ⟨this.1, _, by rw [vset_id _ hx]; exact this.2, rfl⟩

/-! ### Histories -/

/-- Every legal operation keeps the invariant. -/
theorem call_inv (hP : Plain.Honest P) (I : VInv abs Ok s) (o : VOp C I_ F N Y) (es : Nat → Env)
    (hl : VLegal (variants abs s) o) :
    Ends (call H P o es s) (VInv abs Ok) (VInv abs Ok) True := by
  have fin {r : Res (VS C S N) Unit} {Q E : VS C S N → Prop} {D : Prop}
      (h : Ends r (fun s' => VInv abs Ok s' ∧ Q s') (fun s' => VInv abs Ok s' ∧ E s') D) :
      Ends r (VInv abs Ok) (VInv abs Ok) True := h.mono (fun _ h => h.1) (fun _ h => h.1) (fun _ => trivial)
  have fin' {r : Res (VS C S N) Unit} {Q : VS C S N → Prop} {D : Prop}
      (h : Ends r (fun s' => VInv abs Ok s' ∧ Q s') (fun _ => False) D) :
      Ends r (VInv abs Ok) (VInv abs Ok) True := h.mono (fun _ h => h.1) (fun _ h => h.elim) (fun _ => trivial)
  cases o with
  | makePlain x args => exact fin (make_plain_ends I hl args es)
  | makeHeld x k i => exact fin (make_held_ends B I hl k i es)
  | copy x y => obtain ⟨hx, b, hy⟩ := hl; exact fin (copy_ends B hP I hx hy es)
  | move x y => obtain ⟨hx, b, hy⟩ := hl; exact fin (move_ends B hP I hx hy es)
  | destroy x => obtain ⟨a, hx⟩ := hl; exact fin' (destroy_ends B I hx (es 0))
  | assignCopy x y t =>
    obtain ⟨⟨a, hx⟩, ⟨b, hy⟩, ht⟩ := hl
    by_cases hne : x = y
    · subst hne; exact fin (assignSelf_ends B I hx es).1
    · exact fin (assignCopy_ends B hP I hne hx hy ht es)
  | assignMove x y =>
    obtain ⟨⟨a, hx⟩, b, hy⟩ := hl
    by_cases hne : x = y
    · subst hne; exact fin (assignSelf_ends B (t := x) I hx es).2
    · exact fin (assignMove_ends B hP I hne hx hy es)
  | emplacePlain x args => obtain ⟨a, hx⟩ := hl; exact fin (emplace_plain_ends B I hx args es)
  | emplaceHeld x k i => obtain ⟨a, hx⟩ := hl; exact fin (emplace_held_ends B I hx k i es)
  | modifyPlain x g => obtain ⟨v, hx⟩ := hl; exact fin' (modify_plain_ends I hx g es)
  | modifyHeld x f => obtain ⟨k, c, v, hx⟩ := hl; exact fin' (modify_held_ends B I hx f es)

omit B in
theorem inv_init {init : S} (h0 : Ok init) (hd : ∀ l, abs init l = none) :
    VInv (N := N) abs Ok (init, fun _ => .dead) := ⟨h0, fun x k => by simp [hd]⟩

theorem Reach.inv (hP : Plain.Honest P) {init : S} {Allowed : VOp C I_ F N Y → Prop} (h0 : Ok init)
    (hd : ∀ l, abs init l = none) (h : Reach H P abs init Allowed s) : VInv abs Ok s := by
  induction h with
  | init => exact inv_init h0 hd
  | ret o es _ _ hl hc ih => have := call_inv B hP ih o es hl; rw [hc] at this; exact this
  | threw o es e _ _ hl hc ih => have := call_inv B hP ih o es hl; rw [hc] at this; exact this

/-- No variant is valueless by exception. -/
def NoneValueless (σ : Variants C N A W) : Prop := ∀ x, σ x ≠ some .valueless

omit B in
theorem none_vset {σ : Variants C N A W} (h : NoneValueless σ) {x : C} {a : Option (Alt N A W)}
    (ha : a ≠ some .valueless) : NoneValueless (vset σ x a) := by
  intro z
  by_cases hz : z = x
  · subst hz; rw [vset_same]; exact ha
  · rw [vset_other _ _ hz]; exact h z

omit B in
theorem altCopy_ne {b b' : Alt N A W} (h : AltCopy tr T P b b') (hb : b ≠ .valueless) : b' ≠ .valueless := by
  cases b with
  | valueless => exact absurd rfl hb
  | plain v => obtain ⟨_, _, _, rfl⟩ := h; simp
  | held k c => obtain ⟨_, _, rfl⟩ := h; simp

omit B in
theorem altMove_ne {b a' b' : Alt N A W} (h : AltMove P b a' b') (hb : b ≠ .valueless) :
    a' ≠ .valueless ∧ b' ≠ .valueless := by
  cases b with
  | valueless => exact absurd rfl hb
  | plain v => obtain ⟨_, _, _, _, rfl, rfl⟩ := h; simp
  | held k c => obtain ⟨rfl, rfl⟩ := h; simp

theorem call_none_valueless (hP : Plain.Honest P) (hn : P.nothrowMove = true) (hH : ∀ k, (H k).nothrowMove = true)
    (I : VInv abs Ok s) (hs : NoneValueless (variants abs s)) (o : VOp C I_ F N Y) (ho : ¬ IsEmplace o) (es : Nat → Env)
    (hl : VLegal (variants abs s) o) :
    Ends (call H P o es s) (fun s' => NoneValueless (variants abs s')) (fun s' => NoneValueless (variants abs s')) True := by
  have ne {x : C} {a : Alt N A W} (hx : variants abs s x = some a) : a ≠ .valueless := by
    rintro rfl; exact hs x hx
  cases o with
  | makePlain x args =>
    exact (make_plain_ends I hl args es).mono (fun s' ⟨_, _, _, _, h⟩ => h ▸ none_vset hs (by simp))
      (fun s' h => h.2 ▸ hs) (fun h => h.elim)
  | makeHeld x k i =>
    exact (make_held_ends B I hl k i es).mono (fun s' ⟨_, _, _, h⟩ => h ▸ none_vset hs (by simp))
      (fun s' h => h.2 ▸ hs) (fun h => h.elim)
  | copy x y =>
    obtain ⟨hx, b, hy⟩ := hl
    exact (copy_ends B hP I hx hy es).mono (fun s' ⟨_, b', hb, h⟩ => h ▸ none_vset hs (by
      simpa using altCopy_ne hb (ne hy))) (fun s' h => h.2 ▸ hs) (fun h => h.elim)
  | move x y =>
    obtain ⟨hx, b, hy⟩ := hl
    refine (move_ends B hP I hx hy es).mono (fun s' ⟨_, a', b', hb, h⟩ => h ▸ none_vset (none_vset hs ?_) ?_)
      (fun s' ⟨_, b', hb, h⟩ => ?_) (fun h => h.elim)
    · simpa using (altMove_ne hb (ne hy)).2
    · simpa using (altMove_ne hb (ne hy)).1
    · cases b with
      | plain v => have := hb.1; rw [hn] at this; cases this
      | _ => exact hb.elim
  | destroy x =>
    obtain ⟨a, hx⟩ := hl
    exact (destroy_ends B I hx (es 0)).mono (fun s' h => h.2 ▸ none_vset hs (by simp)) (fun _ h => h.elim)
      (fun h => h.elim)
  | assignCopy x y t =>
    obtain ⟨⟨a, hx⟩, ⟨b, hy⟩, ht⟩ := hl
    by_cases hne : x = y
    · subst hne
      refine (assignSelf_ends B I hx es).1.mono (fun s' ⟨_, a', h, h'⟩ => h ▸ none_vset hs ?_)
        (fun s' ⟨_, a', h, h'⟩ => h ▸ none_vset hs ?_) (fun h => h.elim)
      · cases a with
        | plain v => obtain ⟨_, _, _, rfl⟩ := h'; simp
        | valueless => exact absurd rfl (ne hx)
        | held k c => subst h'; simp
      · cases a with
        | plain v => obtain ⟨_, _, _, _, rfl⟩ := h'; simp
        | _ => exact h'.elim
    · refine (assignCopy_ends B hP I hne hx hy ht es).mono (fun s' ⟨_, a', h', h⟩ => h ▸ none_vset hs ?_)
        (fun s' ⟨_, a', h', h⟩ => h ▸ none_vset hs ?_) (fun h => h.elim)
      · by_cases hsm : SameAlt a b
        · have := h'.1 hsm
          cases a <;> cases b <;> try exact this.elim
          · obtain ⟨_, _, _, rfl⟩ := this; simp
          · obtain ⟨_, _, rfl⟩ := this; simp
        · rcases h'.2 hsm with h2 | ⟨c, c', h2, h3⟩
          · simpa using altCopy_ne h2 (ne hy)
          · simpa using (altMove_ne h3 (altCopy_ne h2 (ne hy))).1
      · by_cases hsm : SameAlt a b
        · have := h'.1 hsm
          cases a <;> cases b <;> try exact this.elim
          · obtain ⟨_, _, _, _, rfl⟩ := this; simp
          · obtain ⟨_, _, _, rfl⟩ := this; simp
        · have := h'.2 hsm
          rw [if_pos (by cases b <;> simp [NothrowMove, hn, hH])] at this
          rw [this]; simpa using ne hx
  | assignMove x y =>
    obtain ⟨⟨a, hx⟩, b, hy⟩ := hl
    by_cases hne : x = y
    · subst hne
      refine (assignSelf_ends B (t := x) I hx es).2.mono (fun s' ⟨_, a', h, h'⟩ => h ▸ none_vset hs ?_)
        (fun s' ⟨_, a', h, h'⟩ => h ▸ none_vset hs ?_) (fun h => h.elim)
      · cases a with
        | plain v => obtain ⟨_, _, _, _, rfl⟩ := h'; simp
        | valueless => exact absurd rfl (ne hx)
        | held k c => subst h'; simp
      · cases a with
        | plain v => obtain ⟨_, _, _, _, _, rfl⟩ := h'; simp
        | _ => exact h'.elim
    · have two : ∀ {s' : VS C S N} {a' b' : Alt N A W}, a' ≠ .valueless → b' ≠ .valueless →
          variants abs s' = vset (vset (variants abs s) y (some b')) x (some a') → NoneValueless (variants abs s') :=
        fun h1 h2 h => h ▸ none_vset (none_vset hs (by simpa using h2)) (by simpa using h1)
      refine (assignMove_ends B hP I hne hx hy es).mono (fun s' ⟨_, a', b', h', h⟩ => ?_)
        (fun s' ⟨_, a', b', h', h⟩ => ?_) (fun _ => trivial)
      · by_cases hsm : SameAlt a b
        · have := h'.1 hsm
          cases a <;> cases b <;> try exact this.elim
          · obtain ⟨_, _, _, _, rfl, rfl⟩ := this; exact two (by simp) (by simp) h
          · obtain ⟨_, _, _, rfl, rfl⟩ := this; exact two (by simp) (by simp) h
        · have := altMove_ne (h'.2 hsm) (ne hy)
          exact two this.1 this.2 h
      · by_cases hsm : SameAlt a b
        · have := h'.1 hsm
          cases a <;> cases b <;> try exact this.elim
          · obtain ⟨_, _, _, _, _, rfl, rfl⟩ := this; exact two (by simp) (by simp) h
          · obtain ⟨_, rfl, _, _, _, rfl⟩ := this; exact two (by simp) (by simp) h
        · have := (h'.2 hsm).1
          cases b with
          | plain v => have := this.1; rw [hn] at this; cases this
          | _ => exact this.elim
  | emplacePlain x args => exact absurd trivial ho
  | emplaceHeld x k i => exact absurd trivial ho
  | modifyPlain x g =>
    obtain ⟨v, hx⟩ := hl
    exact (modify_plain_ends I hx g es).mono (fun s' h => h.2 ▸ none_vset hs (by simp)) (fun _ h => h.elim)
      (fun h => h.elim)
  | modifyHeld x f =>
    obtain ⟨k, c, v, hx⟩ := hl
    exact (modify_held_ends B I hx f es).mono (fun s' h => h.2 ▸ none_vset hs (by simp)) (fun _ h => h.elim)
      (fun h => h.elim)

end
end Verif.Variant
