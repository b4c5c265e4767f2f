import Verif.Proofs.Layout

/-!
# C90: sizes of owners
-/

set_option autoImplicit false
set_option linter.unusedSectionVars false

namespace Verif.Props
open Verif.Layout Verif.Spec.Sizes

section
variable {N : Type} [DecidableEq N]

/-- C90, for any class: parts are aligned and inside, bytes of one are not bytes of another, and no two empty objects of one type are at one address.
(A class is not a part of itself.) -/
theorem C90_class (name : N) (pod : Bool) (parts : List (Bool × Ty N)) (hs : ∀ p ∈ parts, Sound p.2)
    (hn : ∀ p ∈ parts, ∀ e ∈ p.2.empties, e.1 ≠ name) :
    Sound (cls name pod parts) ∧ (offsets parts).length = parts.length ∧
      (∀ x ∈ parts.zip (offsets parts), x.1.2.align ∣ x.2 ∧ x.2 + room x.1 ≤ (cls name pod parts).size) ∧
      (∀ p ∈ parts, p.2.align ∣ (cls name pod parts).align) ∧
      (parts.zip (offsets parts)).Pairwise fun x y => Disjoint x.2 (bytes x.1) y.2 (bytes y.1) := by
  have h := inv_parts hs
  refine ⟨sound_cls name pod hs hn, h.length, fun x hx => ?_, h.aligns, h.apart⟩
  exact ⟨(h.inside x hx).1, Nat.le_trans (h.inside x hx).2 (cls_size_le name pod hs)⟩

/-- C90: `indirect` and `polymorphic` are such classes; the pointer and the allocator have no byte in common. -/
theorem C90_owner (name : N) (p a : Ty N) (hp : Sound p) (ha : Sound a) (hn : ∀ t ∈ [p, a], ∀ e ∈ t.empties, e.1 ≠ name) :
    Sound (owner20 name p a) ∧ (owner20 name p a).isEmpty = false ∧ p.align ∣ (owner20 name p a).align ∧ a.align ∣ (owner20 name p a).align ∧
      ∃ o o', offsets (parts20 p a) = [o, o'] ∧ p.align ∣ o ∧ a.align ∣ o' ∧ o + p.size ≤ (owner20 name p a).size ∧
        o' + room (true, a) ≤ (owner20 name p a).size ∧ Disjoint o p.size o' (bytes (true, a)) := by
  have hs : ∀ x ∈ parts20 p a, Sound x.2 := by
    intro x hx
    simp only [parts20, List.mem_cons, List.not_mem_nil, or_false] at hx
    rcases hx with rfl | rfl <;> assumption
  obtain ⟨c1, c2, c3, c4, c5⟩ := C90_class name false (parts20 p a) hs (by
    intro x hx
    simp only [parts20, List.mem_cons, List.not_mem_nil, or_false] at hx
    rcases hx with rfl | rfl
    · exact hn p (by simp)
    · exact hn a (by simp))
  refine ⟨c1, rfl, c4 (false, p) (by simp [parts20]), c4 (true, a) (by simp [parts20]), ?_⟩
  generalize offsets (parts20 p a) = os at c2 c3 c5 ⊢
  match os, c2 with
  | [o, o'], _ =>
    have h1 := c3 ((false, p), o) (by simp [parts20])
    have h2 := c3 ((true, a), o') (by simp [parts20])
    simp only [parts20, List.zip_cons_cons, List.zip_nil_left, List.pairwise_cons, List.mem_singleton, forall_eq] at c5
    exact ⟨o, o', rfl, h1.1, h2.1, h1.2, h2.2, c5.1⟩

/-- C90: an allocator that is an empty class costs nothing, also if it is `final`. -/
theorem C90_free (name : N) (p a : Ty N) (hp : Sound p) (hf : Free p a) (hu : Unrelated p a) :
    (owner20 name p a).size = p.size ∧ (owner20 name p a).align = p.align := by
  have hc : clash p.empties a.empties 0 = false := clash_false.2 fun d hd hm => hu _ hm d hd rfl
  obtain ⟨h1, _⟩ := shared_size p a hp hf.empty hc name
  rw [Nat.max_eq_left hf.size, Nat.max_eq_left hf.align, roundUp_of_dvd (pow_pos' hp.pow) hp.mult] at h1
  refine ⟨h1, ?_⟩
  have hpl := pow_pos' hp.pow
  have := hf.align
  simp only [owner20, parts20, cls, places, place_eq _ (true, a), place_eq _ (false, p), start]
  omega

/-- C90: any other allocator is behind the pointer, where its alignment allows, and there is no more padding than alignment needs. -/
theorem C90_padded (name : N) (p a : Ty N) (hp : Sound p) (ha : Sound a) (he : a.isEmpty = false) :
    ∃ o, offsets (parts20 p a) = [0, o] ∧ Padded p.size a.align o ∧
      Padded (o + a.data) (max p.align a.align) (owner20 name p a).size := by
  obtain ⟨h1, h2⟩ := two_size name (false, p) (true, a) hp ha rfl (by simpa [shares] using he)
  simp only [bytes, he, Bool.false_eq_true, if_false] at h1 h2
  refine ⟨_, h2, roundUp_padded _ _ (pow_pos' ha.pow), ?_⟩
  have := h1
  unfold owner20 parts20
  rw [this]
  exact roundUp_padded _ _ (pow_pos' (max_pow hp.pow ha.pow).1)

/-- C90: with the alignment of pointers the size is the sum (what the tests check for `TrackingAllocator`). -/
theorem C90_sum (name : N) (p a : Ty N) (hp : Sound p) (ha : Sound a) (he : a.isEmpty = false) (hl : a.align = p.align) :
    (owner20 name p a).size = p.size + a.size := by
  obtain ⟨o, _, h2, h3⟩ := C90_padded name p a hp ha he
  obtain ⟨f1, f2, f3⟩ := ha.fits he
  have hpl := pow_pos' hp.pow
  have ho : o = p.size := padded_unique h2 ⟨hl ▸ hp.mult, Nat.le_refl _, by omega⟩
  subst ho
  rw [hl, Nat.max_self] at h3
  exact padded_unique h3 ⟨Nat.dvd_add hp.mult (hl ▸ ha.mult), by omega, by omega⟩

/-- C90: in the C++14 headers too the pointer and the allocator have no byte in common. -/
theorem C90_cxx14_owner (name nb : N) (p a : Ty N) (hp : Sound p) (ha : Sound a) (hn : ∀ t ∈ [p, a], ∀ e ∈ t.empties, e.1 ≠ name)
    (hb : ∀ t ∈ [p, a], ∀ e ∈ t.empties, e.1 ≠ nb) (hnb : nb ≠ name) :
    Sound (owner14 name nb p a) ∧ (owner14 name nb p a).isEmpty = false ∧ p.align ∣ (owner14 name nb p a).align ∧
      a.align ∣ (owner14 name nb p a).align ∧
      ∃ o o', offsets (parts14 nb p a) = [o', o] ∧ p.align ∣ o ∧ a.align ∣ o' ∧ o + p.size ≤ (owner14 name nb p a).size ∧
        o' + a.size ≤ (owner14 name nb p a).size ∧ Disjoint o' (if a.isEmpty && !a.isFinal then 0 else a.size) o p.size := by
  have hB : Sound (base14 nb a) ∧ (base14 nb a).align = a.align ∧ room (true, base14 nb a) = a.size ∧
      bytes (true, base14 nb a) = (if a.isEmpty && !a.isFinal then 0 else a.size) ∧ ∀ e ∈ (base14 nb a).empties, e.1 ≠ name := by
    refine ⟨?_, ?_⟩
    · unfold base14
      split <;> refine sound_cls nb false ?_ ?_ <;>
        simp only [List.mem_singleton, forall_eq] <;> first | exact ha | exact hb a (by simp)
    · by_cases h : (a.isEmpty && !a.isFinal) = true
      · have h' := h
        simp only [Bool.and_eq_true, Bool.not_eq_true'] at h'
        rw [base_shared nb a ha h'.1 h'.2, if_pos h]
        refine ⟨rfl, rfl, rfl, ?_⟩
        intro e he
        rcases List.mem_append.1 he with he | he
        · exact hn a (by simp) e he
        · simp only [List.mem_singleton] at he
          subst he
          exact hnb
      · have h' : (a.isEmpty && !a.isFinal) = false := Bool.eq_false_iff.2 h
        rw [base_kept nb a ha h', if_neg h]
        exact ⟨rfl, rfl, rfl, hn a (by simp)⟩
  obtain ⟨b1, b2, b3, b4, b5⟩ := hB
  have hs : ∀ x ∈ parts14 nb p a, Sound x.2 := by
    intro x hx
    simp only [parts14, List.mem_cons, List.not_mem_nil, or_false] at hx
    rcases hx with rfl | rfl <;> assumption
  obtain ⟨c1, c2, c3, c4, c5⟩ := C90_class name false (parts14 nb p a) hs (by
    intro x hx
    simp only [parts14, List.mem_cons, List.not_mem_nil, or_false] at hx
    rcases hx with rfl | rfl
    · exact b5
    · exact hn p (by simp))
  refine ⟨c1, ?_, c4 (false, p) (by simp [parts14]), ?_, ?_⟩
  · simp [owner14, parts14, cls]
  · rw [← b2]
    exact c4 (true, base14 nb a) (by simp [parts14])
  · generalize offsets (parts14 nb p a) = os at c2 c3 c5 ⊢
    match os, c2 with
    | [o', o], _ =>
      have h1 := c3 ((false, p), o) (by simp [parts14])
      have h2 := c3 ((true, base14 nb a), o') (by simp [parts14])
      simp only [parts14, List.zip_cons_cons, List.zip_nil_left, List.pairwise_cons, List.mem_singleton, forall_eq] at c5
      dsimp only at h2
      rw [b2, b3] at h2
      have h5 := c5.1
      rw [b4] at h5
      exact ⟨o, o', rfl, h1.1, h2.1, h1.2, h2.2, h5⟩

/-- C90: in both headers owners are of the same size, unless the allocator is an empty class that is `final`. -/
theorem C90_cxx14_same_partial (name name' nb : N) (p a : Ty N) (hp : Sound p) (ha : Sound a) (hx : ¬ (a.isEmpty = true ∧ a.isFinal = true))
    (hu : Unrelated p a) (hb : ∀ e ∈ p.empties, e.1 ≠ nb) :
    (owner14 name nb p a).size = (owner20 name' p a).size := by
  by_cases he : a.isEmpty = true
  · have hf : a.isFinal = false := by
      cases h : a.isFinal
      · rfl
      · exact absurd ⟨he, h⟩ hx
    have hc : clash p.empties a.empties 0 = false := clash_false.2 fun d hd hm => hu _ hm d hd rfl
    rw [(owner14_shared name nb p a hp ha he hf hu hb).1, (shared_size p a hp he hc name').1, Nat.max_comm, Nat.max_comm a.align]
  · have he : a.isEmpty = false := Bool.eq_false_iff.2 he
    rw [(owner14_kept name nb p a hp ha (by simp [he])).1]
    have := (two_size name' (false, p) (true, a) hp ha rfl (by simpa [shares] using he)).1
    simp only [bytes, he, Bool.false_eq_true, if_false] at this
    unfold owner20 parts20
    rw [this]
    exact (order_of_parts hp ha he).symm

/-- C90 fails for an empty allocator that is `final`: in the C++14 headers it takes the room of its alignment and padding. -/
theorem C90_violation_cxx14_final (name name' nb : N) (p a : Ty N) (hp : Sound p) (ha : Sound a) (hf : Free p a) (hfin : a.isFinal = true)
    (hu : Unrelated p a) (hs : a.size ≤ p.align) :
    (owner14 name nb p a).size = p.size + p.align ∧ (owner20 name' p a).size = p.size := by
  refine ⟨?_, (C90_free name' p a hp hf hu).1⟩
  rw [(owner14_kept name nb p a hp ha (by simp [hfin])).1, Nat.max_eq_right hf.align]
  have hpl := pow_pos' hp.pow
  have hapos := ha.pos
  have h1 : roundUp a.size p.align = p.align := roundUp_eq ⟨Nat.dvd_refl _, hs, by omega⟩
  rw [h1, roundUp_of_dvd hpl (Nat.dvd_add (Nat.dvd_refl _) hp.mult)]
  omega

/-- C90: `polymorphic` holds a plain pointer, whatever the pointer type of its allocator: there the size is that of a plain pointer with every free
allocator. -/
theorem C90_polymorphic (name nb : N) (k : Nat) (a : Ty N) (ha : Sound a) (hf : Free (scalar (2 ^ k) (2 ^ k)) a) :
    (owner20 name (scalar (2 ^ k) (2 ^ k)) a).size = 2 ^ k ∧
      (a.isFinal = false → (owner14 name nb (scalar (2 ^ k) (2 ^ k)) a).size = 2 ^ k) := by
  have hp : Sound (scalar (2 ^ k) (2 ^ k) : Ty N) := by
    have := Nat.two_pow_pos k
    refine ⟨⟨k, rfl⟩, Nat.dvd_refl _, this, fun _ => ⟨this, Nat.le_refl _, ?_⟩, by simp [scalar], by simp [scalar]⟩
    simp only [scalar]
    omega
  have hu : Unrelated (scalar (2 ^ k) (2 ^ k)) a := by
    intro d hd
    cases hd
  have h := (C90_free name _ a hp hf hu).1
  refine ⟨h, fun hfin => ?_⟩
  have := C90_cxx14_same_partial name name nb (scalar (2 ^ k) (2 ^ k)) a hp ha (by simp [hfin]) hu (by simp [scalar])
  rw [this]
  exact h

/-- C90: objects of one type in a row, in a class (or an array), have nothing between them. -/
theorem C90_members (name : N) (pod : Bool) (t : Ty N) (ht : Sound t) (n : Nat) (hn : 0 < n) :
    (cls name pod (List.replicate n (false, t))).size = n * t.size ∧
      offsets (List.replicate n (false, t)) = (List.range n).map (· * t.size) := by
  have h := places_replicate t ht n (start : Partial N) 0 (by simp [start]) (by simp [start]) rfl (by simp [start]) (by simp [start])
  rw [Nat.zero_add, if_neg (by omega)] at h
  refine ⟨?_, h.2.2⟩
  have hpos : 0 < n * t.size := Nat.mul_pos hn ht.pos
  simp only [cls, h.1, h.2.1]
  rw [Nat.max_eq_right hpos]
  exact roundUp_of_dvd (pow_pos' ht.pow) (Nat.dvd_trans ht.mult (Nat.dvd_mul_left _ _))

/-- C90: in the blocks that `polymorphic` allocates, the owned object is aligned, and has no byte in common with the pointers.  (`2 ^ k` is the size of
plain pointers.) -/
theorem C90_block (name base : N) (k : Nat) (p u : Ty N) (hp : Sound p) (hu : Sound u) (hb : ∀ e ∈ p.empties, e.1 ≠ base)
    (hn : ∀ t ∈ [p, u], ∀ e ∈ t.empties, e.1 ≠ name) :
    Sound (block name base (2 ^ k) p u) ∧ u.align ∣ (block name base (2 ^ k) p u).align ∧
      ∃ o o', offsets (blockParts base (2 ^ k) p u) = [0, o] ∧ Padded (2 ^ k) p.align o' ∧ Padded (o' + p.size) u.align o ∧
        Padded (o + u.size) (max (max (2 ^ k) p.align) u.align) (block name base (2 ^ k) p u).size := by
  have hC := sound_control base k p hp hb
  have hS := sound_storage hu
  have hs : ∀ x ∈ blockParts base (2 ^ k) p u, Sound x.2 := by
    intro x hx
    simp only [blockParts, List.mem_cons, List.not_mem_nil, or_false] at hx
    rcases hx with rfl | rfl <;> assumption
  have hE : (controlBlock base (2 ^ k) p).isEmpty = false := rfl
  have hal : (controlBlock base (2 ^ k) p).align = max (2 ^ k) p.align := by
    have h0 := place_start (false, (scalar (2 ^ k) (2 ^ k) : Ty N)) (sound_scalar' k)
    dsimp only at h0
    simp only [controlBlock, cls, places, place_eq _ (false, p), h0]
    rfl
  have hm : ∀ e ∈ (controlBlock base (2 ^ k) p).empties, e.1 ≠ name := by
    intro e he
    have h0 := place_start (false, (scalar (2 ^ k) (2 ^ k) : Ty N)) (sound_scalar' k)
    dsimp only at h0
    simp only [controlBlock, cls, places, place_eq _ (false, p), h0, List.all_cons, Bool.false_and, Bool.false_eq_true, if_false,
      List.append_nil] at he
    replace he := (List.mem_append.1 he).resolve_left (by simp [scalar])
    obtain ⟨d, hd, rfl⟩ := List.mem_map.1 he
    exact hn p (by simp) d hd
  obtain ⟨c1, _, _, c4, _⟩ := C90_class name false (blockParts base (2 ^ k) p u) hs (by
    intro x hx
    simp only [blockParts, List.mem_cons, List.not_mem_nil, or_false] at hx
    rcases hx with rfl | rfl
    · exact hm
    · exact hn u (by simp))
  obtain ⟨t1, t2⟩ := two_size name (true, controlBlock base (2 ^ k) p) (false, storage u) hC hS rfl rfl
  simp only [bytes, hE, Bool.false_eq_true, if_false, control_data base k p hp, hal] at t1 t2
  refine ⟨c1, c4 (false, storage u) (by simp [blockParts]), _, _, t2, roundUp_padded _ _ (pow_pos' hp.pow), roundUp_padded _ _ (pow_pos' hu.pow), ?_⟩
  unfold block blockParts
  rw [t1]
  exact roundUp_padded _ _ (pow_pos' (max_pow (max_pow ⟨k, rfl⟩ hp.pow).1 hu.pow).1)

end

/-! ### Cases -/

namespace LayoutDemo

/-- Names of classes. -/
inductive Nm where
  | stdAllocator | newAllocator | tracking | tagged | arena | indirect | base | holder
  deriving DecidableEq

/-- A pointer on most machines. -/
def ptr : Ty Nm := scalar 8 8
/-- `std::allocator<T>` of libstdc++: empty, with an empty base. -/
def stdAllocator : Ty Nm := cls .stdAllocator false [(true, cls .newAllocator true [])]
/-- `TrackingAllocator<T>`: two pointers (tracking_allocator.h:28-29). -/
def tracking : Ty Nm := cls .tracking false [(false, ptr), (false, ptr)]
/-- `TaggedAllocator<T>`: a `size_t` (tagged_allocator.h:31). -/
def tagged : Ty Nm := cls .tagged false [(false, scalar 8 8)]
/-- An allocator with a small number and an aligned buffer of numbers. -/
def arena : Ty Nm := cls .arena false [(false, scalar 16 16), (false, scalar 2 2)]
/-- An empty class that is `final`. -/
def sealed : Ty Nm := { cls .arena true [] with isFinal := true }

theorem sound_scalar (k : Nat) : Sound (scalar (2 ^ k) (2 ^ k) : Ty Nm) := by
  have := Nat.two_pow_pos k
  refine ⟨⟨k, rfl⟩, Nat.dvd_refl _, this, fun _ => ⟨this, Nat.le_refl _, ?_⟩, by simp [scalar], by simp [scalar]⟩
  simp only [scalar]
  omega

theorem sound_ptr : Sound ptr := sound_scalar 3

theorem sound_std : Sound stdAllocator :=
  sound_cls _ _ (by simpa using sound_cls Nm.newAllocator true (ps := []) (by simp) (by simp)) (by decide)

theorem sound_tracking : Sound tracking := sound_cls _ _ (by simpa using sound_ptr) (by decide)

theorem sound_arena : Sound arena :=
  sound_cls _ _ (by simp only [List.mem_cons, List.not_mem_nil, or_false, forall_eq_or_imp, forall_eq]; exact ⟨sound_scalar 4, sound_scalar 1⟩)
    (by decide)

theorem sound_sealed : Sound sealed := by
  refine ⟨⟨0, rfl⟩, by decide, by decide, by decide, by decide, by decide⟩

example : Free ptr stdAllocator ∧ Unrelated ptr stdAllocator := ⟨⟨by decide, by decide, by decide⟩, by simp [Unrelated, ptr, scalar]⟩
example : (owner20 Nm.indirect ptr stdAllocator).size = 8 :=
  (C90_free _ ptr stdAllocator sound_ptr ⟨by decide, by decide, by decide⟩ (by simp [Unrelated, ptr, scalar])).1
example : (owner20 Nm.indirect ptr tracking).size = 24 := C90_sum _ ptr tracking sound_ptr sound_tracking (by decide) (by decide)
example : (owner14 Nm.indirect Nm.base ptr tracking).size = 24 := by decide
/-- The over-aligned allocator: 16 for the pointer and its padding, 18 and padding for the allocator. -/
example : (owner20 Nm.indirect ptr arena).size = 48 ∧ (owner14 Nm.indirect Nm.base ptr arena).size = 48 := by decide
example : offsets (parts20 ptr arena) = [0, 16] ∧ offsets (parts14 Nm.base ptr arena) = [0, 32] := by decide
example : (owner14 Nm.indirect Nm.base ptr arena).size = (owner20 Nm.indirect ptr arena).size :=
  C90_cxx14_same_partial _ _ _ ptr arena sound_ptr sound_arena (by decide) (by simp [Unrelated, ptr, scalar]) (by simp [ptr, scalar])
/-- The violation: 16 instead of 8. -/
example : (owner14 Nm.indirect Nm.base ptr sealed).size = 16 ∧ (owner20 Nm.indirect ptr sealed).size = 8 :=
  C90_violation_cxx14_final _ _ _ ptr sealed sound_ptr sound_sealed ⟨by decide, by decide, by decide⟩ (by decide) (by simp [Unrelated, ptr, scalar])
    (by decide)
/-- A pointer class that has the allocator as a base: the allocator does not fit beside it. -/
example : (owner20 Nm.indirect (cls .holder false [(true, stdAllocator), (false, ptr)]) stdAllocator).size = 16 := by decide
example : (cls Nm.holder false (List.replicate 5 (false, owner20 Nm.indirect ptr stdAllocator))).size = 5 * 8 :=
  (C90_members _ _ _ (sound_cls _ _ (by
    simp only [parts20, List.mem_cons, List.not_mem_nil, or_false, forall_eq_or_imp, forall_eq]; exact ⟨sound_ptr, sound_std⟩) (by decide)) 5 (by decide)).1

/-- A block for a `long double` (16 bytes, 16 aligned): two pointers and the object. -/
example : (block Nm.holder Nm.base 8 ptr (scalar 16 16)).size = 32 := by decide
example : offsets (blockParts Nm.base 8 ptr (scalar 16 16)) = [0, 16] ∧ offsets (blockParts Nm.base 8 (scalar 4 4) (scalar 4 4)) = [0, 12] := by decide
example : Sound (block Nm.holder Nm.base (2 ^ 3) ptr arena) :=
  (C90_block Nm.holder Nm.base 3 ptr arena sound_ptr sound_arena (by simp [ptr, scalar]) (by decide)).1

end LayoutDemo
end Verif.Props
