import Verif.Proofs.Inv
import Verif.Spec.Abs

/-! The abstraction map and the elementary changes of state. -/

set_option autoImplicit false
set_option linter.unusedSectionVars false
set_option linter.unusedSimpArgs false

namespace Verif
open Spec

section
variable {L A R B W : Type} [DecidableEq L] [DecidableEq R]
variable {res : A → R} {good : Addr → B → Prop} {hs : L → Option (Handle A)}
  {heap : Addr → Option (Cell R B)} {val : B → Option W}

theorem absWith_apply (l : L) :
    absWith val hs heap l =
      (hs l).map fun h => ⟨h.alloc, h.p.bind fun p => (heap p).bind fun c => val c.body⟩ := rfl

theorem Inv.fresh (I : Inv res good hs heap) {p : Addr} (hp : heap p = none) {l : L} {h : Handle A}
    (hl : hs l = some h) : h.p ≠ some p := by
  intro e; obtain ⟨b, hb, _⟩ := I.own l h p hl e; simp [hp] at hb

theorem absWith_heap_congr {heap' : Addr → Option (Cell R B)} {z : L}
    (H : ∀ h p, hs z = some h → h.p = some p → heap' p = heap p) :
    absWith val hs heap' z = absWith val hs heap z := by
  unfold absWith
  cases hz : hs z with
  | none => rfl
  | some h =>
    cases hp : h.p with
    | none => simp [hp]
    | some p => simp [hp, H h p hz hp]

theorem abs_create (I : Inv res good hs heap) {l : L} {p : Addr} {a : A} {b : B} {r : R}
    (hp : heap p = none) :
    absWith val (upd hs l (some ⟨some p, a⟩)) (upd heap p (some ⟨r, b⟩)) =
      put (absWith val hs heap) l ⟨a, val b⟩ := by
  funext z
  simp only [put]
  by_cases e : z = l
  · subst e; simp [absWith]
  · simp only [e, if_false]
    rw [absWith_apply, upd_other _ _ e, ← absWith_apply, absWith_heap_congr]
    intro h q hz hq
    have := I.fresh hp hz
    rw [upd_other]; rintro rfl; exact this hq

theorem abs_createNull {l : L} {a : A} :
    absWith val (upd hs l (some ⟨none, a⟩)) heap = put (absWith val hs heap) l ⟨a, none⟩ := by
  funext z; simp only [absWith, put, upd]; by_cases e : z = l <;> simp [e]

theorem abs_put (x : L) (h : Handle A) :
    absWith val (upd hs x (some h)) heap =
      put (absWith val hs heap) x
        ⟨h.alloc, h.p.bind fun p => (heap p).bind fun c => val c.body⟩ := by
  funext z; simp only [absWith, put, upd]; by_cases e : z = x <;> simp [e]

theorem abs_drop (x : L) :
    absWith val (upd hs x none) heap = drop (absWith val hs heap) x := by
  funext z; simp only [absWith, drop, upd]; by_cases e : z = x <;> simp [e]

theorem abs_write (I : Inv res good hs heap) {x : L} {h : Handle A} {p : Addr} {r : R} {b' : B}
    (hx : hs x = some h) (hp : h.p = some p) :
    absWith val hs (upd heap p (some ⟨r, b'⟩)) = setVal (absWith val hs heap) x (val b') := by
  funext z
  simp only [setVal]
  by_cases e : z = x
  · subst e; simp [absWith, hx, hp]
  · simp only [e, if_false]
    apply absWith_heap_congr
    intro k q hz hq
    rw [upd_other]
    rintro rfl
    exact e (I.uniq _ _ _ _ _ hz hx hq hp)

/-- The block of `x` is freed and `x` gets pointer null and any allocator. -/
theorem abs_resetTo (I : Inv res good hs heap) {x : L} {h : Handle A} {p : Addr} {a : A}
    (hx : hs x = some h) (hp : h.p = some p) :
    absWith val (upd hs x (some ⟨none, a⟩)) (upd heap p none) =
      put (absWith val hs heap) x ⟨a, none⟩ := by
  rw [abs_createNull]
  funext z
  simp only [put]
  by_cases e : z = x
  · simp [e]
  · simp only [e, if_false]
    apply absWith_heap_congr
    intro k q hz hq
    rw [upd_other]
    rintro rfl
    exact e (I.uniq _ _ _ _ _ hz hx hq hp)

theorem abs_some {x : L} {b : Box A W} (h : absWith val hs heap x = some b) :
    ∃ k, hs x = some k ∧ b.alloc = k.alloc ∧
      b.val = k.p.bind fun p => (heap p).bind fun c => val c.body := by
  unfold absWith at h
  cases hx : hs x with
  | none => simp [hx] at h
  | some k => simp [hx] at h; subst h; exact ⟨k, rfl, rfl, rfl⟩

end
end Verif
