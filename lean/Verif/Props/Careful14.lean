import Verif.Proofs.Careful14
import Verif.Props.Polymorphic14

/-!
# C41, C43, C55: polymorphic_cxx14.h with any allocator

The theorems of `Props/Polymorphic14.lean` exclude allocators that propagate on copy assignment without being always equal.  Here they are
allowed; what is excluded is the single call that goes wrong with them, the allocator-extended move of a value to an unequal allocator.
-/

set_option autoImplicit false
set_option linter.unusedSectionVars false
set_option linter.unusedSimpArgs false

namespace Verif.Props
open Verif.Polymorphic (abs)
open Verif.Polymorphic14 (CarefulRun Careful NoDerivedLists)

section
variable {L A R Ty V X : Type} [DecidableEq L] [DecidableEq R] [DecidableEq Ty]
variable {tr : ATraits A R} {P : PSpec Ty V X} {s s' : St L A R (PBody Ty V)} {o : POp L A Ty V X}
  {cs : List (POp L A Ty V X × Env)} {log : List (Seen (Out L A (Ty × V)))} {x y : L} {p : Addr}

/-- A careful history runs alike with either header, and is legal with the other: same results, same states, same sequence of
allocations, constructions and so on. -/
theorem C43_careful_history (S : tr.Sound) (E : tr.Equality) (hc : CarefulRun tr P cs St.init) (hl : NoDerivedLists P cs) :
    Polymorphic14.run tr P cs St.init = Polymorphic.run tr P cs St.init ∧ Polymorphic.LegalRun tr P cs St.init := by
  have := Polymorphic14.careful_run S E .init hc
  rwa [Polymorphic14.fixes_eq hl] at this

/-- The same for a careful call in a state in which a program with the other header can be. -/
theorem C43_careful_call (S : tr.Sound) (E : tr.Equality) (h : Polymorphic.Reach tr P s) (hc : Careful tr (abs s) o)
    (ho : ∀ x a ty l us, o = .make x a (.ilist ty l us) → ty = P.base) (e : Env) :
    Polymorphic14.call tr (plainP P) o e s = Polymorphic.call tr (plainP P) o e s := by
  rw [Polymorphic14.careful_call S E h hc e]
  cases o with
  | make x a k =>
    cases k with
    | ilist ty l us => rw [ho x a ty l us rfl]; rfl
    | _ => rfl
  | _ => rfl

/-- A careful history has no undefined behaviour. -/
theorem C55_careful_no_undefined_behaviour (S : tr.Sound) (E : tr.Equality) (hc : CarefulRun tr P cs St.init) :
    (∃ log s, Polymorphic14.run tr P cs St.init = .done log s) ∨
    (∃ log, Polymorphic14.run tr P cs St.init = .terminated log) := by
  obtain ⟨h1, h2⟩ := Polymorphic14.careful_run S E .init hc
  rw [h1]
  exact C31_history_no_undefined_behaviour S _ h2

/-- After a careful history every object owns storage that its allocator can free.
Missing: histories with an allocator-extended move of a value to an unequal allocator, if the allocator propagates on copy assignment,
for which this is false: see `C41_steals_foreign_storage` and `C41_violated`. -/
theorem C41_careful_storage_of_own_allocator_partial (S : tr.Sound) (E : tr.Equality) (hc : CarefulRun tr P cs St.init)
    (hr : Polymorphic14.run tr P cs St.init = .done log s) {b : Spec.Box A (Ty × V)} (hb : abs s x = some b)
    (hx : addr s x = some p) : ∃ c, s.heap p = some c ∧ c.arena = tr.res b.alloc := by
  obtain ⟨h1, h2⟩ := Polymorphic14.careful_run S E .init hc
  exact C32_storage_of_own_allocator S (Polymorphic.Reach.run .init h2 (h1 ▸ hr)) hb hx

/-- After a careful history different objects own different blocks. -/
theorem C55_careful_exclusive_ownership (S : tr.Sound) (E : tr.Equality) (hc : CarefulRun tr P cs St.init)
    (hr : Polymorphic14.run tr P cs St.init = .done log s) (hx : addr s x = some p) (hy : addr s y = some p) : x = y := by
  obtain ⟨h1, h2⟩ := Polymorphic14.careful_run S E .init hc
  exact C32_exclusive_ownership S (Polymorphic.Reach.run .init h2 (h1 ▸ hr)) hx hy

/-- If no object is left after a careful history, nothing is. -/
theorem C55_careful_no_leak (S : tr.Sound) (E : tr.Equality) (hc : CarefulRun tr P cs St.init)
    (hr : Polymorphic14.run tr P cs St.init = .done log s) (hdead : ∀ x, Spec.Dead (abs s) x) (p : Addr) :
    s.heap p = none ∧ Spec.allocsAt p s.trace = Spec.deallocsAt p s.trace ∧
      Spec.constructsAt p s.trace = Spec.destroysAt p s.trace := by
  obtain ⟨h1, h2⟩ := Polymorphic14.careful_run S E .init hc
  exact C32_no_leak S (Polymorphic.Reach.run .init h2 (h1 ▸ hr)) hdead p

/-- A careful history gives the results of the same history on plain tagged values. -/
theorem C55_careful_value_history (S : tr.Sound) (E : tr.Equality) (hc : CarefulRun tr P cs St.init) (hl : NoDerivedLists P cs) :
    match Polymorphic14.run tr P cs St.init with
    | .done log s => Spec.prun tr P (Polymorphic.lucks tr P cs St.init) (fun _ => none) = .done log (abs s)
    | .terminated log => Spec.prun tr P (Polymorphic.lucks tr P cs St.init) (fun _ => none) = .terminated log
    | _ => False := by
  obtain ⟨h1, h2⟩ := C43_careful_history S E hc hl
  rw [h1]
  exact C40_history_is_value_history S cs h2

/-- Careful is all that is needed: from any state that a program can be in, a legal call that is not careful and goes to an allocator of
another memory resource leads to an object that cannot be destroyed. -/
theorem C41_careful_needed (S : tr.Sound) (h : Polymorphic.Reach tr P s) (hl : Spec.PLegal tr (abs s) o)
    (hc : ¬ Careful tr (abs s) o) (hres : ∀ a b, tr.eq a b = false → tr.res a ≠ tr.res b) (e e' : Env) :
    ∃ x s', Polymorphic14.call tr (plainP P) o e s = .ok .unit s' ∧ Spec.PLegal tr (abs s') (.destroy x : POp L A Ty V X) ∧
      Polymorphic14.call tr (plainP P) (.destroy x) e' s' = .ub .wrongArena := by
  cases o with
  | moveA x a y =>
    simp only [Careful, Classical.not_imp, Classical.not_forall] at hc
    obtain ⟨hp, b, v, hy, hab⟩ := hc
    obtain ⟨ty, v⟩ := v
    have hab' : tr.eq a b = false := by simpa using hab
    obtain ⟨_, s', q, c, h1, _, _, _, _, h2, h3⟩ :=
      C41_steals_foreign_storage (e := e) (e' := e') S h hp hl.1 hy (hres _ _ hab')
    exact ⟨x, s', h1, h2, h3⟩
  | _ => exact absurd trivial hc

end

/-! ## Instances -/

section
open Demo

instance decCareful (tr : ATraits Nat Nat) (σ : Spec.Boxes Nat Nat (Nat × Nat)) (o : POp Nat Nat Nat Nat Nat) :
    Decidable (Careful tr σ o) := by
  cases o
  case moveA x a y =>
    exact match h : σ y with
    | none => isTrue (by intro _ b v hv; rw [h] at hv; cases hv)
    | some ⟨b, none⟩ => isTrue (by intro _ b v hv; rw [h] at hv; cases hv)
    | some ⟨b, some v⟩ =>
      if hb : tr.pocca = true → tr.eq a b = true then isTrue (by intro hp b' v' hv; rw [h] at hv; cases hv; exact hb hp)
      else isFalse (fun k => hb fun hp => k hp b v h)
  all_goals exact isTrue trivial

instance (tr : ATraits Nat Nat) (cs : PDemo.Hist) (s : St Nat Nat Nat (PBody Nat Nat)) :
    Decidable (CarefulRun tr PDemo.P cs s) :=
  decLegalWith (fun (c : POp Nat Nat Nat Nat Nat × Env) s => Polymorphic14.call tr (plainP PDemo.P) c.1 c.2 s)
    (fun s c => Spec.PLegal tr (abs s) c.1 ∧ Careful tr (abs s) c.1) cs s

/-- With an allocator that propagates and has unequal instances: moves to an equal allocator, a valueless source moved to an unequal
one, a copy assignment that takes over the allocator. -/
def carefully : PDemo.Hist := [
  (.make 1 (some 5) (.from 1 (.arg 7)), fine 100), (.make 2 (some 6) (.from 2 (.arg 8)), fine 101), (.moveA 3 5 1, fine 102),
  (.moveA 4 6 1, full), (.assignCopy 3 2, fine 103), (.destroy 2, full), (.destroy 3, full), (.destroy 1, full), (.destroy 4, full)]

example : (alloc true true false).Sound ∧ (alloc true true false).Equality ∧ CarefulRun (alloc true true false) PDemo.P carefully St.init ∧
    NoDerivedLists PDemo.P carefully ∧ (alloc true true false).pocca = true ∧ (alloc true true false).alwaysEqual = false := by
  refine ⟨alloc_sound _ _ _, alloc_equality _ _ _, by decide, ?_, rfl, rfl⟩
  intro c hc x a ty l us h
  simp [carefully] at hc
  rcases hc with rfl | rfl | rfl | rfl | rfl | rfl | rfl | rfl | rfl <;> cases h

-- C41_careful_needed: the call of C41_violated is not careful.
example : ¬ Careful (alloc true false false) (abs (PDemo.st true false false)) (.moveA 7 6 1 : POp Nat Nat Nat Nat Nat) ∧
    Spec.PLegal (alloc true false false) (abs (PDemo.st true false false)) (.moveA 7 6 1 : POp Nat Nat Nat Nat Nat) ∧
    ∀ a b, (alloc true false false).eq a b = false → (alloc true false false).res a ≠ (alloc true false false).res b := by
  refine ⟨by decide, by decide, ?_⟩
  intro a b h
  simpa [alloc] using h

end

end Verif.Props
