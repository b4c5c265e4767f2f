import Verif.Proofs.Exchange
import Verif.Props.Sorting

/-!
# C74: exchange by moves with unequal allocators

`std::swap(x, y)` by name of objects with unequal allocators, which `x.swap(y)` does not allow: the values are moved to new
storage.  It can throw, and then the value of `x` is lost, with the temporary that held it.
-/

set_option autoImplicit false
set_option linter.unusedSectionVars false
set_option linter.unusedSimpArgs false

namespace Verif.Props
open Verif

section
variable {L A R V X : Type} [DecidableEq L] [DecidableEq R]
open Indirect
variable {tr : ATraits A R} {T : TSpec V X} {s : St L A R (Obj V)} {t x y : L} {k l : Spec.Box A V}

/-- indirect.h: unequal allocators that do not propagate.  If it returns, the values were exchanged by moves and the allocators
stay; if it throws, the value of `x` is lost.  No other object changes, nothing leaks. -/
theorem C74_swap_by_moves_unequal (S : tr.Sound) (Rf : tr.Reflexive) (h : Indirect.Reach tr T s) (hx : abs s x = some k)
    (hy : abs s y = some l) (ht : Spec.Dead (abs s) t) (hxy : x ≠ y) (h1 : tr.eq k.alloc l.alloc = false)
    (h2 : tr.eq l.alloc k.alloc = false) (hp : tr.pocma = false) (ha : tr.alwaysEqual = false) (es : Nat → Env) :
    ∃ b s', (swapByMoves t x y).run (Indirect.call tr (plain T)) es s = .ok b s' ∧
      Spec.ByMoves T x y k l (abs s) (abs s') b ∧ Spec.OwnedOnce s' :=
  Conc.exchange_run (Conc.indirect tr T S) (Conc.moves_indirect tr T) Rf (h.inv S) hx hy ht hxy h1 h2 hp ha es

/-- indirect_cxx14.h: the same. -/
theorem C74_cxx14_swap_by_moves_unequal (S : tr.Sound) (Rf : tr.Reflexive) (h : Indirect14.Reach tr T s)
    (hx : abs s x = some k) (hy : abs s y = some l) (ht : Spec.Dead (abs s) t) (hxy : x ≠ y)
    (h1 : tr.eq k.alloc l.alloc = false) (h2 : tr.eq l.alloc k.alloc = false) (hp : tr.pocma = false)
    (ha : tr.alwaysEqual = false) (es : Nat → Env) :
    ∃ b s', (swapByMoves t x y).run (Indirect14.call tr (plain T)) es s = .ok b s' ∧
      Spec.ByMoves T x y k l (abs s) (abs s') b ∧ Spec.OwnedOnce s' := by
  obtain ⟨b, s', h1, h2, h3⟩ := Conc.exchange_run (T := T.cxx14) (Conc.indirect14 tr T S) (Conc.moves_indirect tr T.cxx14) Rf
    (((Indirect14.reach_iff tr T _).1 h).inv S) hx hy ht hxy h1 h2 hp ha es
  refine ⟨b, s', h1, ?_, h3⟩
  obtain ⟨v, w, e, a, c⟩ := h2
  refine ⟨v, w, e, fun hb => ?_, fun hb => ?_⟩
  · obtain ⟨a1, a2⟩ := a hb
    constructor
    · cases hl : l.val <;> rw [hl] at a1 <;> exact a1
    · cases hk : k.val <;> rw [hk] at a2 <;> exact a2
  · obtain ⟨c1, c2⟩ := c hb
    refine ⟨c1.imp id fun c1 => ?_, c2⟩
    cases hl : l.val <;> rw [hl] at c1 <;> exact c1

end

section
variable {L A R Ty V X : Type} [DecidableEq L] [DecidableEq R] [DecidableEq Ty]
open Polymorphic
variable {tr : ATraits A R} {P : PSpec Ty V X} {s : St L A R (PBody Ty V)} {t x y : L} {k l : Spec.Box A (Ty × V)}

/-- polymorphic.h: the same; types are exchanged with the values. -/
theorem C74_polymorphic_swap_by_moves_unequal (S : tr.Sound) (Rf : tr.Reflexive) (h : Polymorphic.Reach tr P s)
    (hx : abs s x = some k) (hy : abs s y = some l) (ht : Spec.Dead (abs s) t) (hxy : x ≠ y)
    (h1 : tr.eq k.alloc l.alloc = false) (h2 : tr.eq l.alloc k.alloc = false) (hp : tr.pocma = false)
    (ha : tr.alwaysEqual = false) (es : Nat → Env) :
    ∃ b s', (pswapByMoves t x y).run (Polymorphic.call tr (plainP P)) es s = .ok b s' ∧
      Spec.ByMoves P.owned x y k l (abs s) (abs s') b ∧ Spec.OwnedOnce s' :=
  Conc.exchange_run (Conc.polymorphic tr P S) (Conc.moves_polymorphic tr P) Rf ⟨(h.sim S).1, (h.sim S).2.inv S⟩ hx hy ht hxy h1 h2
    hp ha es

/-- polymorphic_cxx14.h: the same, for allocators with which allocator-extended moves are safe (C41). -/
theorem C74_polymorphic14_swap_by_moves_unequal (E : tr.Equality) (hq : tr.pocca = true → tr.alwaysEqual = true) (S : tr.Sound)
    (Rf : tr.Reflexive) (h : Polymorphic14.Reach tr P s)
    (hx : abs s x = some k) (hy : abs s y = some l) (ht : Spec.Dead (abs s) t) (hxy : x ≠ y)
    (h1 : tr.eq k.alloc l.alloc = false) (h2 : tr.eq l.alloc k.alloc = false) (hp : tr.pocma = false)
    (ha : tr.alwaysEqual = false) (es : Nat → Env) :
    ∃ b s', (pswapByMoves t x y).run (Polymorphic14.call tr (plainP P)) es s = .ok b s' ∧
      Spec.ByMoves P.owned x y k l (abs s) (abs s') b ∧ Spec.OwnedOnce s' :=
  have h' := Polymorphic14.reach_of E hq h
  Conc.exchange_run (Conc.polymorphic14 tr P S E hq) (Conc.moves_polymorphic14 tr P) Rf ⟨(h'.sim S).1, (h'.sim S).2.inv S⟩ hx hy ht
    hxy h1 h2 hp ha es

end

/-! ## Examples -/

section
open Indirect
open Verif.Demo (alloc st st_reach)

/-- Storage is exhausted in the second of the calls. -/
def exhausted : Nat → Env := fun i => if i = 1 then ⟨fun _ => true, fun _ => 300, fun _ => 0⟩ else ⟨fun _ => false, fun _ => 300 + i, fun _ => 0⟩

/-- The hypotheses hold for two objects with different allocators. -/
example : Indirect.Reach (alloc false false false) Demo.T (st false false false) ∧
    abs (st false false false) 1 = some ⟨5, some 7⟩ ∧ abs (st false false false) 3 = some ⟨6, some 9⟩ ∧
    Spec.Dead (abs (st false false false)) 9 ∧ (alloc false false false).eq 5 6 = false ∧
    (alloc false false false).eq 6 5 = false ∧ (alloc false false false).pocma = false ∧
    (alloc false false false).alwaysEqual = false :=
  ⟨st_reach _ _ _, by decide, by decide, by decide, by decide, by decide, rfl, rfl⟩

/-- The values were moved. -/
example : exchanged [1, 3, 9] ((swapByMoves 9 1 3).run (Indirect.call (alloc false false false) (plain Demo.T))
    (fun i => ⟨fun _ => false, fun _ => 300 + i, fun _ => 0⟩) (st false false false)) =
    some (true, [some (5, some 9), some (6, some 7), none]) := by decide +kernel

/-- The value 7 is lost, although nothing was wrong with it: there was no storage for the value of the other object. -/
theorem C74_swap_by_moves_loses_value :
    exchanged [1, 3, 9] ((swapByMoves 9 1 3).run (Indirect.call (alloc false false false) (plain Demo.T)) exhausted
      (st false false false)) = some (false, [some (5, none), some (6, some 9), none]) := by decide +kernel

end
end Verif.Props
