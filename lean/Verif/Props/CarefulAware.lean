import Verif.Proofs.CarefulAware
import Verif.Props.Careful14
import Verif.Props.Aware
import Verif.Props.Counting
import Verif.Props.Noexcept

/-!
# C76, C77, C100: polymorphic_cxx14.h with any allocator

As `Props/Careful14.lean`: instead of allocators that propagate on copy assignment without being always equal, what is excluded is the
single call that goes wrong with them.
-/

set_option autoImplicit false
set_option linter.unusedSectionVars false

namespace Verif.Props
open Verif
open Verif.Polymorphic (abs)
open Verif.Polymorphic14 (Careful CarefulAwareReach CarefulCountReach)
open Verif.Spec (Paired Owns customCalls slotAt)

section
variable {L A R Ty V X : Type} [DecidableEq L] [DecidableEq R] [DecidableEq Ty]
variable {tr : ATraits A R} {P : PAwareSpec A Ty V X} {Q : PSpec Ty V X} {uses : Ty → V → R} {k : POp L A Ty V X → Prop}
  {s : St L A R (PBody Ty V)}

/-- polymorphic_cxx14.h: after a careful history, a careful call does what it would do if all constructors used the allocator that the
object has after the call.
Missing: calls that are not careful, for which it is false: see `C76_polymorphic14_violated`. -/
theorem C76_careful_calls_partial (S : tr.Sound) (E : tr.Equality) (h : CarefulAwareReach tr P k s) (o : POp L A Ty V X) (e : Env)
    (hl : Spec.PLegal tr (abs s) o) (hc : Careful tr (abs s) o) :
    Spec.Does abs (Polymorphic14.call tr (awareP P) o e s)
      (Spec.pstep14 tr (P.at (Spec.phome tr (abs s) o)) (available s e) (e.choice 0) (abs s) o) :=
  (Polymorphic14.careful_aware_does S E (h.ok S E) P o e hl hc).2

/-- polymorphic_cxx14.h: after a careful history every owned object uses memory of its owner's resource.
Missing: histories that are not careful, for which it is false: see `C76_polymorphic14_violated`. -/
theorem C76_careful_own_memory_partial (S : tr.Sound) (E : tr.Equality) (hP : Spec.PStays tr P uses)
    (h : CarefulAwareReach tr P (Spec.PKeepsHome uses) s) : Spec.AtHome tr (fun v => uses v.1 v.2) (abs s) :=
  h.home S E hP

/-- polymorphic_cxx14.h: if no object is left after a careful history, nothing is.
Missing: histories that are not careful. -/
theorem C76_careful_nothing_left_partial (S : tr.Sound) (E : tr.Equality) (h : CarefulAwareReach tr P k s)
    (hd : ∀ z, Spec.Dead (abs s) z) : Spec.AllGone s :=
  Composite.gone (h.ok S E) hd

/-- polymorphic_cxx14.h: after a careful history with an allocator that has its own `construct` and `destroy`, a careful call does what
it does with the default ones.
Missing: calls that are not careful (C41, `C76_polymorphic14_violated`). -/
theorem C77_careful_calls_partial (S : tr.Sound) (E : tr.Equality) (h : CarefulCountReach tr Q s) (o : POp L A Ty V X) (e : Env)
    (hl : Spec.PLegal tr (abs s) o) (hc : Careful tr (abs s) o) :
    Spec.Does abs (Polymorphic14.call tr (countingP tr (plainP Q)) o e s)
      (Spec.pstep14 tr Q (available s e) (e.choice 0) (abs s) o) :=
  (Polymorphic14.careful_count_does S E (h.ok S E) Q o e hl hc).2

/-- polymorphic_cxx14.h: after a careful history every owned object was constructed with `construct`, and every other one that was, was
destroyed with `destroy` with the same memory resource.
Missing: histories that are not careful, and control blocks (`C77_polymorphic_violated`). -/
theorem C77_careful_paired_partial (S : tr.Sound) (E : tr.Equality) (h : CarefulCountReach tr Q s) : Paired tr .object s :=
  (h.ok S E).paired

/-- polymorphic_cxx14.h: after a careful history, `construct` was called as often as `destroy` and once more for every object that is
owned now, for every memory resource.
Missing: as for `C77_careful_paired_partial`. -/
theorem C77_careful_counts_partial (S : tr.Sound) (E : tr.Equality) (h : CarefulCountReach tr Q s) (r : R) :
    ∃ ps : List Addr, ps.Nodup ∧ (∀ p, p ∈ ps ↔ ∃ z a, Owns s z p a ∧ tr.res a = r) ∧
      customCalls .construct .object r s.trace = customCalls .destroy .object r s.trace + ps.length :=
  Counted.counts (h.ok S E).paired r

/-- polymorphic_cxx14.h: when no owner is left after a careful history, `construct` was called as often as `destroy` for owned objects.
Missing: as for `C77_careful_paired_partial`. -/
theorem C77_careful_balanced_partial (S : tr.Sound) (E : tr.Equality) (h : CarefulCountReach tr Q s) (hd : ∀ z, Spec.Dead (abs s) z)
    (r : R) : customCalls .construct .object r s.trace = customCalls .destroy .object r s.trace :=
  Counted.balanced (h.ok S E).paired (fun z => Indirect.abs_dead (s := Polymorphic.view s) (by rw [Polymorphic.abs_view]; exact hd z)) r

/-- polymorphic_cxx14.h: after a careful history, a careful call of a function that the paper promises not to throw returns.
Missing: move assignment between unequal allocators (C39), and calls that are not careful. -/
theorem C100_kept_careful_partial (S : tr.Sound) (E : tr.Equality) {cs : List (POp L A Ty V X × Env)} {log : List (Seen (Out L A (Ty × V)))}
    (hr : Polymorphic14.CarefulRun tr Q cs St.init) (h : Polymorphic14.run tr Q cs St.init = .done log s) {o : POp L A Ty V X}
    {f : Noexcept.Fn} (hl : Spec.PLegal tr (abs s) o) (hc : Careful tr (abs s) o) (hf : Noexcept.fnP o = some f)
    (hp : Spec.Paper.Promised tr false f)
    (hu : ∀ x y k b v, o = .assignMove x y → x ≠ y → abs s x = some k → abs s y = some ⟨b, some v⟩ → tr.eq k.alloc b = true) (e : Env) :
    ∃ out s', Polymorphic14.call tr (plainP Q) o e s = .ok out s' := by
  obtain ⟨h1, h2⟩ := Polymorphic14.careful_run S E .init hr
  have hR := Polymorphic.Reach.run .init h2 (h1 ▸ h)
  have hx : Polymorphic14.fix Q.base o = o := by cases o <;> cases hf <;> first | rfl | simp [Spec.Paper.Promised] at hp
  rw [Polymorphic14.careful_call S E hR hc e, hx]
  exact C100_kept_polymorphic_partial S ⟨E.refl⟩ hR hl hf hp hu e

end

/-! ## Concrete cases -/
section
open Demo

/-- The allocator propagates and has unequal instances.  Object 1 has allocator 5, object 2 allocator 6; 3 takes over 1 with an equal
allocator; 4 is made from the valueless 1 with another one; 3 is assigned from 2, and its allocator too; then the value is 6's. -/
def carefulAware : List (POp Nat Nat Nat (Nat × Nat) Nat × Env) := [
  (.make 1 (some 5) (.from 1 (.arg 7)), fine 100), (.make 2 (some 6) (.from 2 (.arg 8)), fine 101), (.moveA 3 5 1, fine 102),
  (.moveA 4 6 1, full), (.assignCopy 3 2, fine 103), (.copyA 5 9 2, fine 104)]

instance decCarefulAny {L V : Type} (tr : ATraits Nat Nat) (σ : Spec.Boxes L Nat (Nat × V)) (o : POp L Nat Nat V Nat) :
    Decidable (Careful tr σ o) := by
  cases o
  case moveA x a y =>
    exact match h : σ y with
    | none => isTrue (by intro _ b v hv; rw [h] at hv; cases hv)
    | some ⟨b, none⟩ => isTrue (by intro _ b v hv; rw [h] at hv; cases hv)
    | some ⟨b, some v⟩ =>
      if hb : tr.pocca = true → tr.eq a b = true then isTrue (by intro hp b' v' hv; rw [h] at hv; cases hv; exact hb hp)
      else isFalse (fun k => hb fun hp => k hp b v h)
  all_goals exact isTrue trivial

def carefulAwareEnd : St Nat Nat Nat (PBody Nat (Nat × Nat)) :=
  lastState St.init (runWith (fun c s => Polymorphic14.call (alloc true true false) (awareP ptagged) c.1 c.2 s) carefulAware St.init)

-- C76_careful_calls_partial, C76_careful_own_memory_partial
example : (alloc true true false).Sound ∧ (alloc true true false).Equality ∧
    Spec.PStays (alloc true true false) ptagged (fun _ => Prod.fst) ∧
    CarefulAwareReach (alloc true true false) ptagged (Spec.PKeepsHome (fun _ => Prod.fst)) carefulAwareEnd ∧
    abs carefulAwareEnd 3 = some ⟨6, some (2, (6, 2008))⟩ ∧ abs carefulAwareEnd 5 = some ⟨9, some (2, (9, 2008))⟩ ∧
    (alloc true true false).pocca = true ∧ (alloc true true false).alwaysEqual = false :=
  ⟨alloc_sound _ _ _, alloc_equality _ _ _, ptagged_stays _ _ _,
    ends_at (legal := fun s o => Spec.PLegal (alloc true true false) (abs s) o ∧ Careful (alloc true true false) (abs s) o)
      (by decide +kernel)
      (by intro c h; simp only [carefulAware, List.mem_cons, List.not_mem_nil, or_false] at h
          rcases h with rfl | rfl | rfl | rfl | rfl | rfl <;> trivial),
    by decide +kernel, by decide +kernel, rfl, rfl⟩

def carefulCountEnd : St Nat Nat Nat (PBody Nat Nat) :=
  countEnd St.init (runWith (fun c s => Polymorphic14.call (alloc true true false) (countingP (alloc true true false) (plainP PDemo.P)) c.1 c.2 s)
    (carefully.take 6) St.init)

-- C77_careful_calls_partial, C77_careful_paired_partial, C77_careful_counts_partial
example : CarefulCountReach (alloc true true false) PDemo.P carefulCountEnd ∧
    customCalls .construct .object 6 carefulCountEnd.trace = 2 ∧ customCalls .destroy .object 6 carefulCountEnd.trace = 1 ∧
    customCalls .construct .object 5 carefulCountEnd.trace = 1 ∧ customCalls .destroy .object 5 carefulCountEnd.trace = 1 :=
  ⟨count_ends (legal := fun s (o : POp Nat Nat Nat Nat Nat) => Spec.PLegal (alloc true true false) (abs s) o ∧ Careful (alloc true true false) (abs s) o)
      (by decide +kernel), by decide +kernel, by decide +kernel, by decide +kernel, by decide +kernel⟩

/-- Everything is destroyed in the end. -/
def carefulVisit (V : Type) : List (POp Bool Nat Nat V Nat × Env) := [
  (.make true (some 5) (.from 1 (.arg 7)), fine 100), (.moveA false 5 true, full), (.destroy true, full),
  (.make true (some 6) (.from 2 (.arg 8)), fine 101), (.assignCopy false true, fine 102), (.destroy true, full), (.destroy false, full)]

def carefulVisitEnd : St Bool Nat Nat (PBody Nat (Nat × Nat)) :=
  lastState St.init (runWith (fun c s => Polymorphic14.call (alloc true true false) (awareP ptagged) c.1 c.2 s)
    (carefulVisit (Nat × Nat)) St.init)

-- C76_careful_nothing_left_partial
example : CarefulAwareReach (alloc true true false) ptagged (Spec.PKeepsHome (fun _ => Prod.fst)) carefulVisitEnd ∧
    (∀ z, Spec.Dead (abs carefulVisitEnd) z) ∧ carefulVisitEnd.trace ≠ [] :=
  ⟨ends_at (legal := fun s o => Spec.PLegal (alloc true true false) (abs s) o ∧ Careful (alloc true true false) (abs s) o)
      (by decide +kernel)
      (by intro c h; simp only [carefulVisit, List.mem_cons, List.not_mem_nil, or_false] at h
          rcases h with rfl | rfl | rfl | rfl | rfl | rfl | rfl <;> trivial),
    by decide +kernel, by decide +kernel⟩

def carefulSettleEnd : St Bool Nat Nat (PBody Nat Nat) :=
  countEnd St.init (runWith (fun c s => Polymorphic14.call (alloc true true false) (countingP (alloc true true false) (plainP PDemo.P)) c.1 c.2 s)
    (carefulVisit Nat) St.init)

-- C77_careful_balanced_partial
example : CarefulCountReach (alloc true true false) PDemo.P carefulSettleEnd ∧ (∀ z, Spec.Dead (abs carefulSettleEnd) z) ∧
    customCalls .construct .object 6 carefulSettleEnd.trace = 2 ∧ customCalls .construct .object 5 carefulSettleEnd.trace = 1 :=
  ⟨count_ends (legal := fun s (o : POp Bool Nat Nat Nat Nat) => Spec.PLegal (alloc true true false) (abs s) o ∧ Careful (alloc true true false) (abs s) o)
      (by decide +kernel), by decide +kernel, by decide +kernel, by decide +kernel⟩

def carefulRunEnd : St Nat Nat Nat (PBody Nat Nat) :=
  countEnd St.init (Polymorphic14.run (alloc true true false) PDemo.P (carefully.take 5) St.init)

/-- Whether a history came to its end. -/
def returned {S O : Type} : Run S O → Bool
  | .done _ _ => true
  | _ => false

-- C100_kept_careful_partial: object 3 is moved to a new object.
example : ∃ out s', Polymorphic14.call (alloc true true false) (plainP PDemo.P) (.move 9 3) full carefulRunEnd = .ok out s' := by
  have hd : ∃ log, Polymorphic14.run (alloc true true false) PDemo.P (carefully.take 5) St.init = .done log carefulRunEnd := by
    unfold carefulRunEnd
    cases h : Polymorphic14.run (alloc true true false) PDemo.P (carefully.take 5) St.init with
    | done log s => exact ⟨log, rfl⟩
    | _ =>
      have h1 : returned (Polymorphic14.run (alloc true true false) PDemo.P (carefully.take 5) St.init) = true := by decide
      rw [h] at h1; cases h1
  obtain ⟨log, h⟩ := hd
  exact C100_kept_careful_partial (alloc_sound _ _ _) (alloc_equality _ _ _) (by decide) h (o := .move 9 3) (by decide) trivial rfl (.inl (by simp)) (by simp) full

end
end Verif.Props
