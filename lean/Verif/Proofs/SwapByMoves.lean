import Verif.Props.IndirectAssign
import Verif.Props.IndirectConstruct
import Verif.Props.IndirectSwap

/-!
# Move assignment to a valueless object

Used for `swapByMoves`.
-/

set_option autoImplicit false
set_option linter.unusedSectionVars false
set_option linter.unusedSimpArgs false

namespace Verif.Indirect
open Verif Verif.Props

variable {L A R V X : Type} [DecidableEq L] [DecidableEq R]
variable {tr : ATraits A R} {T : TSpec V X} {s : St L A R (Obj V)} {x y : L} {l : Spec.Box A V}

theorem assign_into_valueless (S : tr.Sound) (h : Indirect.Reach tr T s) (hxy : x ≠ y) {a : A}
    (hx : abs s x = some ⟨a, none⟩) (hy : abs s y = some l) (hq : tr.eq a l.alloc = true) (e : Env) :
    ∃ s', Indirect.call tr (plain T) (.assignMove x y) e s = .ok (.self x) s' ∧ Indirect.Reach tr T s' ∧
      abs s' = Spec.put (Spec.put (abs s) y ⟨l.alloc, none⟩) x ⟨if tr.pocma then l.alloc else a, l.val⟩ ∧
      addr s' x = addr s y ∧ (∀ z, z ≠ x → z ≠ y → s'.hs z = s.hs z) ∧ s'.heap = s.heap ∧ Spec.Silent s s' := by
  have hlegal : Spec.Legal tr (abs s) (.assignMove x y : Op L A V X) := ⟨⟨_, hx⟩, ⟨_, hy⟩⟩
  have hp : addr s x = none := by rw [addr, disengaged (h.inv S) hx]; rfl
  have hw : Spec.without s.heap none = s.heap := by funext z; simp [Spec.without]
  obtain ⟨b, v⟩ := l
  cases v with
  | none =>
    obtain ⟨s', hc, he⟩ := C12_from_valueless (T := T) S h hxy hx hy e
    have R := call_ok_spec (o := .assignMove x y) S h hlegal hc
    simp only [Spec.step, Spec.assignMove, hxy, if_false, hx, hy, Spec.Result.ret.injEq, true_and] at R
    refine ⟨s', hc, .ret _ e _ h hlegal hc, ?_, ?_, fun z h1 _ => he.others z h1, ?_, ?_⟩
    · rw [← R]
      funext z
      simp only [Spec.put]
      split
      · rfl
      · split
        · rename_i h; rw [h, hy]
        · rfl
    · simp [addr, he.owner, disengaged (h.inv S) hy]
    · rw [he.storage, hp, hw]
    · have := he.events; rw [hp] at this; simpa [Spec.released, Spec.Silent] using this
  | some v =>
    obtain ⟨s', hc, h1, -, -, h4, h5, h6⟩ := C12_equal_allocators (T := T) S h hxy hx hy hq e
    have R := call_ok_spec (o := .assignMove x y) S h hlegal hc
    simp only [Spec.step, Spec.assignMove, hxy, if_false, hx, hy, hq, if_true, Spec.Result.ret.injEq, true_and] at R
    refine ⟨s', hc, .ret _ e _ h hlegal hc, R.symm, h1, h4, ?_, ?_⟩
    · rw [h5, hp, hw]
    · rw [hp] at h6; simpa [Spec.released, Spec.Silent] using h6

/-- The calls of `swapByMoves`, each of which is legal. -/
theorem swap_steps (S : tr.Sound) (Rf : tr.Reflexive) (h : Indirect.Reach tr T s) {k l : Spec.Box A V} {t : L}
    (hx : abs s x = some k) (hy : abs s y = some l) (ht : Spec.Dead (abs s) t) (hxy : x ≠ y)
    (h1 : tr.eq k.alloc l.alloc = true) (h2 : tr.eq l.alloc k.alloc = true) (es : Nat → Env) :
    ∃ o₁ o₂ o₃ o₄ sa sb sc s',
      Indirect.call tr (plain T) (.move t x) (es 0) s = .ok o₁ sa ∧
      Indirect.call tr (plain T) (.assignMove x y) (es 1) sa = .ok o₂ sb ∧
      Indirect.call tr (plain T) (.assignMove y t) (es 2) sb = .ok o₃ sc ∧
      Indirect.call tr (plain T) (.destroy t) (es 3) sc = .ok o₄ s' ∧
      (abs sa x).isSome ∧ (abs sa y).isSome ∧ (abs sb y).isSome ∧ (abs sb t).isSome ∧ (abs sc t).isSome ∧
      addr s' x = addr s y ∧ addr s' y = addr s x ∧
      abs s' x = some ⟨if tr.pocma then l.alloc else k.alloc, l.val⟩ ∧
      abs s' y = some ⟨if tr.pocma then k.alloc else l.alloc, k.val⟩ ∧
      (∀ z, z ≠ x → z ≠ y → s'.hs z = s.hs z) ∧ s'.heap = s.heap ∧ Spec.Silent s s' := by
  have htx : t ≠ x := by rintro rfl; rw [ht] at hx; cases hx
  have hty : t ≠ y := by rintro rfl; rw [ht] at hy; cases hy
  have ht0 : s.hs t = none := by
    cases hh : s.hs t with
    | none => rfl
    | some b => simp [Spec.Dead, abs, absWith, hh] at ht
  obtain ⟨sa, ca, fa⟩ := C08_move_transfers (T := T) Rf ht hx (es 0)
  have ra : Indirect.Reach tr T sa := .ret (.move t x) (es 0) _ h ⟨ht, _, hx⟩ ca
  have ax : abs sa x = some ⟨k.alloc, none⟩ := by rw [fa.values]; simp [Spec.put, Ne.symm htx]
  have ay : abs sa y = some l := by rw [fa.values]; simp [Spec.put, Ne.symm hty, Ne.symm hxy, hy]
  have at' : abs sa t = some ⟨k.alloc, k.val⟩ := by rw [fa.values]; simp [Spec.put]
  obtain ⟨sb, cb, rb, vb, adb, ob, hb, tb⟩ := assign_into_valueless (T := T) S ra hxy ax ay h1 (es 1)
  have by' : abs sb y = some ⟨l.alloc, none⟩ := by rw [vb]; simp [Spec.put, Ne.symm hxy]
  have bt : abs sb t = some ⟨k.alloc, k.val⟩ := by rw [vb]; simp [Spec.put, htx, hty, at']
  have bx : abs sb x = some ⟨if tr.pocma then l.alloc else k.alloc, l.val⟩ := by rw [vb]; simp [Spec.put]
  obtain ⟨sc, cc, rc, vc, adc, oc, hc, tc⟩ := assign_into_valueless (T := T) S rb (Ne.symm hty) by' bt h2 (es 2)
  have ct : abs sc t = some ⟨k.alloc, none⟩ := by rw [vc]; simp [Spec.put, hty]
  have cx : abs sc x = some ⟨if tr.pocma then l.alloc else k.alloc, l.val⟩ := by
    rw [vc]; simp [Spec.put, hxy, Ne.symm htx, bx]
  have cy : abs sc y = some ⟨if tr.pocma then k.alloc else l.alloc, k.val⟩ := by rw [vc]; simp [Spec.put]
  obtain ⟨sd, cd, td, hd, od, hpd⟩ := C21_destroy_valueless (T := T) S rc ct (es 3)
  have R := call_ok_spec (o := .destroy t) S rc ⟨_, ct⟩ cd
  simp only [Spec.step, Spec.Result.ret.injEq, true_and] at R
  refine ⟨_, _, _, _, sa, sb, sc, sd, ca, cb, cc, cd, by rw [ax]; rfl, by rw [ay]; rfl, by rw [by']; rfl, by rw [bt]; rfl, by rw [ct]; rfl,
    ?_, ?_, ?_, ?_, ?_, ?_, ?_⟩
  · have e1 : addr sd x = addr sc x := by simp [addr, od x (Ne.symm htx)]
    have e2 : addr sc x = addr sb x := by simp [addr, oc x hxy (Ne.symm htx)]
    have e3 : addr sa y = addr s y := by simp [addr, fa.others y (Ne.symm hty) (Ne.symm hxy)]
    rw [e1, e2, adb, e3]
  · have e1 : addr sd y = addr sc y := by simp [addr, od y (Ne.symm hty)]
    have e2 : addr sb t = addr sa t := by simp [addr, ob t htx hty]
    rw [e1, adc, e2, fa.address]
  · rw [← R]; simp [Spec.drop, Ne.symm htx, cx]
  · rw [← R]; simp [Spec.drop, Ne.symm hty, cy]
  · intro z zx zy
    by_cases hzt : z = t
    · rw [hzt, hd, ht0]
    · rw [od z hzt, oc z zy hzt, ob z zx zy, fa.others z hzt zx]
  · rw [hpd, hc, hb, fa.storage]
  · simp only [Spec.Silent] at *
    rw [td, tc, tb, fa.silent]

end Verif.Indirect
