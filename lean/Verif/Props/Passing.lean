import Verif.Proofs.PassingLaws
import Verif.Demo
import Verif.PDemo

/-!
# C93: exceptions pass through owners
-/

set_option autoImplicit false
set_option linter.unusedSectionVars false
set_option linter.unusedSimpArgs false

namespace Verif.Props
open Verif Verif.Passing Verif.Spec.Passing

section
variable {L A R V X : Type} [DecidableEq L] [DecidableEq R]

/-- **C93.** No function of `indirect` looks at an exception: if the functions of `T` throw other exceptions, then the same calls do the same and throw the other exceptions. -/
theorem C93_unchanged_indirect (tr : ATraits A R) (f : Exn → Exn) (hf : f .badAlloc = .badAlloc) (T : TOps (St L A R (Obj V)) A X) (o : Op L A V X) (s : St L A R (Obj V)) :
    Indirect.step tr (renamed f T) o s = rename f (Indirect.step tr T o s) :=
  step_rel (renamed_cong hf) (renamed_rel f hf T) o s

/-- **C93**, indirect_cxx14.h. -/
theorem C93_unchanged_indirect_cxx14 (tr : ATraits A R) (f : Exn → Exn) (hf : f .badAlloc = .badAlloc) (T : TOps (St L A R (Obj V)) A X) (o : Op L A V X) (s : St L A R (Obj V)) :
    Indirect14.step tr (renamed f T) o s = rename f (Indirect14.step tr T o s) :=
  step14_rel (renamed_cong hf) (renamed_rel f hf T) o s

/-- **C93.** What leaves a function of `indirect` is `bad_alloc` or thrown by a constructor or an assignment operator of `T`. -/
theorem C93_only_indirect (tr : ATraits A R) (E : Exn → Prop) (hE : E .badAlloc) (T : TOps (St L A R (Obj V)) A X) (hT : ThrowsT E T) (o : Op L A V X) : Throws E (Indirect.step tr T o) :=
  step_rel (throws_cong hE) (throws_rel hT) o

/-- **C93**, indirect_cxx14.h. -/
theorem C93_only_indirect_cxx14 (tr : ATraits A R) (E : Exn → Prop) (hE : E .badAlloc) (T : TOps (St L A R (Obj V)) A X) (hT : ThrowsT E T) (o : Op L A V X) :
    Throws E (Indirect14.step tr T o) :=
  step14_rel (throws_cong hE) (throws_rel hT) o

/-- **C93.** If a function of `indirect` returns, then no function of `T` threw meanwhile: doing something undefined instead of throwing changes nothing. -/
theorem C93_none_lost_indirect (tr : ATraits A R) (T : TOps (St L A R (Obj V)) A X) (o : Op L A V X) (s : St L A R (Obj V)) (r : Out L A V) (s' : St L A R (Obj V))
    (h : Indirect.step tr T o s = .ok r s') : Indirect.step tr (fatal T) o s = .ok r s' :=
  step_rel fatal_cong (fatal_rel T) o s r s' h

/-- **C93**, indirect_cxx14.h. -/
theorem C93_none_lost_indirect_cxx14 (tr : ATraits A R) (T : TOps (St L A R (Obj V)) A X) (o : Op L A V X) (s : St L A R (Obj V)) (r : Out L A V) (s' : St L A R (Obj V))
    (h : Indirect14.step tr T o s = .ok r s') : Indirect14.step tr (fatal T) o s = .ok r s' :=
  step14_rel fatal_cong (fatal_rel T) o s r s' h

/-- **C93.** If a function of `indirect` returns, then no allocation was refused meanwhile. -/
theorem C93_memory_indirect (tr : ATraits A R) (T : TOps (St L A R (Obj V)) A X) (hT : SuppliedT T) (o : Op L A V X) : Supplied (Indirect.step tr T o) :=
  step_rel supplied_cong (supplied_rel hT) o

/-- **C93**, indirect_cxx14.h. -/
theorem C93_memory_indirect_cxx14 (tr : ATraits A R) (T : TOps (St L A R (Obj V)) A X) (hT : SuppliedT T) (o : Op L A V X) : Supplied (Indirect14.step tr T o) :=
  step14_rel supplied_cong (supplied_rel hT) o

/-- **C93.** A destructor of `T` that throws ends the program. -/
theorem C93_destructor_indirect (tr : ATraits A R) (T : TOps (St L A R (Obj V)) A X) (o : Op L A V X) :
    Indirect.step tr T o = Indirect.step tr { T with dtor := fun a p => M.noexceptIf true (T.dtor a p) } o :=
  step_rel eq_cong (dtor_rel T) o

/-- **C93**, indirect_cxx14.h. -/
theorem C93_destructor_indirect_cxx14 (tr : ATraits A R) (T : TOps (St L A R (Obj V)) A X) (o : Op L A V X) :
    Indirect14.step tr T o = Indirect14.step tr { T with dtor := fun a p => M.noexceptIf true (T.dtor a p) } o :=
  step14_rel eq_cong (dtor_rel T) o

/-- **C93.** Destruction, swap and the observers never throw, whatever `T` does. -/
theorem C93_never_indirect (tr : ATraits A R) (T : TOps (St L A R (Obj V)) A X) (o : Op L A V X) (ho : NeverThrows o) (s s' : St L A R (Obj V)) (e : Exn) :
    Indirect.step tr T o s ≠ .threw e s' := fun h => step_calm T ho s e s' h

/-- **C93**, indirect_cxx14.h. -/
theorem C93_never_indirect_cxx14 (tr : ATraits A R) (T : TOps (St L A R (Obj V)) A X) (o : Op L A V X) (ho : NeverThrows o) (s s' : St L A R (Obj V)) (e : Exn) :
    Indirect14.step tr T o s ≠ .threw e s' := by
  rw [Looking.step14]
  exact fun h => step_calm _ ho s e s' h

end

section
variable {L A R Ty V X : Type} [DecidableEq L] [DecidableEq R] [DecidableEq Ty]

/-- **C93**, polymorphic.h. -/
theorem C93_unchanged_polymorphic (tr : ATraits A R) (f : Exn → Exn) (hf : f .badAlloc = .badAlloc) (P : POps (St L A R (PBody Ty V)) A Ty X) (hb : DefaultBlock P) (o : POp L A Ty V X)
    (s : St L A R (PBody Ty V)) : Polymorphic.step tr (renamedP f P) o s = rename f (Polymorphic.step tr P o s) :=
  stepP_rel (renamed_cong hf) (renamedP_rel f hf hb) o s

/-- **C93**, polymorphic_cxx14.h. -/
theorem C93_unchanged_polymorphic_cxx14 (tr : ATraits A R) (f : Exn → Exn) (hf : f .badAlloc = .badAlloc) (P : POps (St L A R (PBody Ty V)) A Ty X) (hb : DefaultBlock P) (o : POp L A Ty V X)
    (s : St L A R (PBody Ty V)) : Polymorphic14.step tr (renamedP f P) o s = rename f (Polymorphic14.step tr P o s) :=
  stepP14_rel (renamed_cong hf) (renamedP_rel f hf hb) o s

/-- **C93**, polymorphic.h. -/
theorem C93_only_polymorphic (tr : ATraits A R) (E : Exn → Prop) (hE : E .badAlloc) (P : POps (St L A R (PBody Ty V)) A Ty X) (hb : DefaultBlock P) (hP : ThrowsP E P) (o : POp L A Ty V X) :
    Throws E (Polymorphic.step tr P o) :=
  stepP_rel (throws_cong hE) (throwsP_rel hb hP) o

/-- **C93**, polymorphic_cxx14.h. -/
theorem C93_only_polymorphic_cxx14 (tr : ATraits A R) (E : Exn → Prop) (hE : E .badAlloc) (P : POps (St L A R (PBody Ty V)) A Ty X) (hb : DefaultBlock P) (hP : ThrowsP E P)
    (o : POp L A Ty V X) : Throws E (Polymorphic14.step tr P o) :=
  stepP14_rel (throws_cong hE) (throwsP_rel hb hP) o

/-- **C93**, polymorphic.h. -/
theorem C93_none_lost_polymorphic (tr : ATraits A R) (P : POps (St L A R (PBody Ty V)) A Ty X) (hb : DefaultBlock P) (o : POp L A Ty V X) (s : St L A R (PBody Ty V)) (r : Out L A (Ty × V))
    (s' : St L A R (PBody Ty V)) (h : Polymorphic.step tr P o s = .ok r s') : Polymorphic.step tr (fatalP P) o s = .ok r s' :=
  stepP_rel fatal_cong (fatalP_rel hb) o s r s' h

/-- **C93**, polymorphic_cxx14.h. -/
theorem C93_none_lost_polymorphic_cxx14 (tr : ATraits A R) (P : POps (St L A R (PBody Ty V)) A Ty X) (hb : DefaultBlock P) (o : POp L A Ty V X) (s : St L A R (PBody Ty V))
    (r : Out L A (Ty × V)) (s' : St L A R (PBody Ty V)) (h : Polymorphic14.step tr P o s = .ok r s') : Polymorphic14.step tr (fatalP P) o s = .ok r s' :=
  stepP14_rel fatal_cong (fatalP_rel hb) o s r s' h

/-- **C93**, polymorphic.h. -/
theorem C93_memory_polymorphic (tr : ATraits A R) (P : POps (St L A R (PBody Ty V)) A Ty X) (hb : DefaultBlock P) (hP : SuppliedP P) (o : POp L A Ty V X) : Supplied (Polymorphic.step tr P o) :=
  stepP_rel supplied_cong (suppliedP_rel hb hP) o

/-- **C93**, polymorphic_cxx14.h. -/
theorem C93_memory_polymorphic_cxx14 (tr : ATraits A R) (P : POps (St L A R (PBody Ty V)) A Ty X) (hb : DefaultBlock P) (hP : SuppliedP P) (o : POp L A Ty V X) :
    Supplied (Polymorphic14.step tr P o) :=
  stepP14_rel supplied_cong (suppliedP_rel hb hP) o

/-- **C93**, polymorphic.h. -/
theorem C93_destructor_polymorphic (tr : ATraits A R) (P : POps (St L A R (PBody Ty V)) A Ty X) (hb : DefaultBlock P) (o : POp L A Ty V X) :
    Polymorphic.step tr P o = Polymorphic.step tr { P with dtor := fun ty a p => M.noexceptIf true (P.dtor ty a p) } o :=
  stepP_rel eq_cong (dtorP_rel hb) o

/-- **C93**, polymorphic_cxx14.h. -/
theorem C93_destructor_polymorphic_cxx14 (tr : ATraits A R) (P : POps (St L A R (PBody Ty V)) A Ty X) (hb : DefaultBlock P) (o : POp L A Ty V X) :
    Polymorphic14.step tr P o = Polymorphic14.step tr { P with dtor := fun ty a p => M.noexceptIf true (P.dtor ty a p) } o :=
  stepP14_rel eq_cong (dtorP_rel hb) o

/-- **C93**, polymorphic.h. -/
theorem C93_never_polymorphic (tr : ATraits A R) (P : POps (St L A R (PBody Ty V)) A Ty X) (o : POp L A Ty V X) (ho : NeverThrowsP o) (s s' : St L A R (PBody Ty V)) (e : Exn) :
    Polymorphic.step tr P o s ≠ .threw e s' := fun h => stepP_calm P ho s e s' h

/-- **C93**, polymorphic_cxx14.h. -/
theorem C93_never_polymorphic_cxx14 (tr : ATraits A R) (P : POps (St L A R (PBody Ty V)) A Ty X) (o : POp L A Ty V X) (ho : NeverThrowsP o) (s s' : St L A R (PBody Ty V)) (e : Exn) :
    Polymorphic14.step tr P o s ≠ .threw e s' := fun h => stepP14_calm P ho s e s' h

end

/-! ## The hypotheses can be met -/

section
open Demo

/-- How a call ended. -/
def outcome {σ α : Type} : Res σ α → Option (Option Exn)
  | .ok _ _ => some none
  | .threw e _ => some (some e)
  | _ => none

/-- `T` of `Verif/Demo.lean` throws `user 13` only; it allocates nothing. -/
example : ThrowsT (fun e => e = .badAlloc ∨ e = .user 13) (plain T : TOps (St Nat Nat Nat (Obj Nat)) Nat Nat) :=
  plain_throws T (fun xs n e h => by unfold T at h; simp only at h; split at h <;> cases h; exact .inr rfl) (fun v n e h => by unfold T at h; simp only at h; split at h <;> cases h; exact .inr rfl)
    (fun v n e h => by unfold T at h; simp only at h; split at h <;> cases h; exact .inr rfl) (fun d v n e h => by unfold T at h; simp only at h; split at h <;> cases h; exact .inr rfl)
    (fun d v n e h => by unfold T at h; simp only at h; split at h <;> cases h; exact .inr rfl) (fun d v n e h => by unfold T at h; simp only at h; split at h <;> cases h; exact .inr rfl)

example : SuppliedT (plain T : TOps (St Nat Nat Nat (Obj Nat)) Nat Nat) := plain_supplied T

example : SuppliedP (plainP PDemo.P : POps (St Nat Nat Nat (PBody Nat Nat)) Nat Nat Nat) ∧ DefaultBlock (plainP PDemo.P : POps (St Nat Nat Nat (PBody Nat Nat)) Nat Nat Nat) :=
  ⟨plainP_supplied _, fun _ _ _ => rfl⟩

example : ThrowsP (fun e => e = .badAlloc ∨ e = .user 13) (plainP PDemo.P : POps (St Nat Nat Nat (PBody Nat Nat)) Nat Nat Nat) :=
  plainP_throws _ (fun ty xs n e h => by unfold PDemo.P at h; simp only at h; split at h <;> cases h; exact .inr rfl)
    (fun ty v n e h => by unfold PDemo.P at h; simp only at h; split at h <;> cases h; exact .inr rfl) (fun ty v n e h => by unfold PDemo.P at h; simp only at h; split at h <;> cases h; exact .inr rfl)

/-- A copy that throws, one for which there is no storage, and one that succeeds; the exception of another type comes out as it is. -/
example : outcome (Indirect.call (alloc false false false) (plain T) (.copy 9 1 : Op Nat Nat Nat Nat) (bad 200) s0) = some (some (.user 13))
    ∧ outcome (Indirect.call (alloc false false false) (plain T) (.copy 9 1 : Op Nat Nat Nat Nat) full s0) = some (some .badAlloc)
    ∧ outcome (Indirect.call (alloc false false false) (plain T) (.copy 9 1 : Op Nat Nat Nat Nat) (fine 200) s0) = some none
    ∧ outcome (Indirect.call (alloc false false false) (renamed (fun e => if e = .user 13 then .user 14 else e) (plain T)) (.copy 9 1 : Op Nat Nat Nat Nat) (bad 200) s0) = some (some (.user 14)) := by
  decide

/-- A destructor that throws ends the program, in the destructor of `indirect` and in an assignment. -/
example : outcome (Indirect.call (alloc false false false) { plain T with dtor := fun _ _ => M.throwE (.user 1) } (.destroy 1 : Op Nat Nat Nat Nat) (fine 200) s0) = none
    ∧ outcome (Indirect.call (alloc true false false) { plain T with dtor := fun _ _ => M.throwE (.user 1) } (.assignCopy 1 3 : Op Nat Nat Nat Nat) (fine 200) s0) = none := by decide

end
end Verif.Props
