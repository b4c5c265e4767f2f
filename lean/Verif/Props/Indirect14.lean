import Verif.Proofs.Indirect14
import Verif.Props.IndirectSafety
import Verif.Props.IndirectGlobal

/-!
# C30, C51: indirect_cxx14.h

`Indirect14.call`, `Indirect14.run`, `Indirect14.LegalRun` and `Indirect14.Reach` are what `Indirect.call` etc. are,
with the functions of indirect_cxx14.h.
-/

set_option autoImplicit false
set_option linter.unusedSectionVars false
set_option linter.unusedSimpArgs false

namespace Verif.Props
open Demo
open Verif.Indirect (abs)

section
variable {L A R V X : Type} [DecidableEq L] [DecidableEq R]
variable {tr : ATraits A R} {T : TSpec V X} {s : St L A R (Obj V)}

/-! ## C30 -/

/-- If `assignable_from<T&, T>` and `is_copy_assignable<T>` agree, every call, in every state and environment, has the
same result with either header: same outcome, same objects, same storage, same sequence of operations on storage and
on `T`. -/
theorem C30_same_call (tr : ATraits A R) (h : T.assignable = T.copyAssignable) (o : Op L A V X) (e : Env)
    (s : St L A R (Obj V)) :
    Indirect14.call tr (plain T) o e s = Indirect.call tr (plain T) o e s := by
  rw [Indirect14.call_eq, Indirect14.cxx14_self h]

/-- Every history runs alike with either header, and is legal with one if and only if with the other. -/
theorem C30_same_history (tr : ATraits A R) (h : T.assignable = T.copyAssignable) (cs : List (Op L A V X × Env))
    (s : St L A R (Obj V)) :
    Indirect14.run tr T cs s = Indirect.run tr T cs s ∧
    (Indirect14.LegalRun tr T cs s ↔ Indirect.LegalRun tr T cs s) := by
  rw [Indirect14.run_eq, Indirect14.legalRun_eq, Indirect14.cxx14_self h]
  exact ⟨rfl, .rfl⟩

/-- For an arbitrary `T` the C++14 header behaves as the C++20 header does for the type with `assignable_from<T&, T>`
replaced by `is_copy_assignable<T>`. -/
theorem C30_any_type (tr : ATraits A R) (T : TSpec V X) (cs : List (Op L A V X × Env)) (s : St L A R (Obj V)) :
    Indirect14.run tr T cs s = Indirect.run tr { T with assignable := T.copyAssignable } cs s := by
  rw [Indirect14.run_eq]; rfl

/-- Only copy assignment depends on these traits. -/
theorem C30_only_copy_assignment (tr : ATraits A R) (T : TSpec V X) (o : Op L A V X)
    (ho : ∀ x y, o ≠ .assignCopy x y) (e : Env) (s : St L A R (Obj V)) :
    Indirect14.call tr (plain T) o e s = Indirect.call tr (plain T) o e s := by
  rw [Indirect14.call_eq]
  unfold Indirect.call
  cases o with
  | assignCopy x y => exact absurd rfl (ho x y)
  | make x a c => cases a <;> cases c <;> rfl
  | _ => rfl

/-! ## C51 -/

/-- No legal history has undefined behaviour, whatever `T`. -/
theorem C51_no_undefined_behaviour (S : tr.Sound) (cs : List (Op L A V X × Env))
    (hl : Indirect14.LegalRun tr T cs St.init) :
    (∃ log s, Indirect14.run tr T cs St.init = .done log s) ∨
    (∃ log, Indirect14.run tr T cs St.init = .terminated log) := by
  rw [Indirect14.run_eq]
  rw [Indirect14.legalRun_eq] at hl
  exact C01_history_no_undefined_behaviour S cs hl

/-- Different objects own different blocks. -/
theorem C51_exclusive_ownership (S : tr.Sound) (h : Indirect14.Reach tr T s) {x y : L} {p : Addr}
    (hx : addr s x = some p) (hy : addr s y = some p) : x = y :=
  C02_exclusive_ownership S ((Indirect14.reach_iff tr T s).1 h) hx hy

/-- Once no object is left, nothing is: every block has been freed as often as allocated and every `T` destroyed as
often as constructed. -/
theorem C51_no_leak (S : tr.Sound) (h : Indirect14.Reach tr T s) (hdead : ∀ x, Spec.Dead (abs s) x) (p : Addr) :
    s.heap p = none ∧ Spec.allocsAt p s.trace = Spec.deallocsAt p s.trace ∧
      Spec.constructsAt p s.trace = Spec.destroysAt p s.trace :=
  C03_no_leak S ((Indirect14.reach_iff tr T s).1 h) hdead p

/-- Storage goes back to the resource it came from. -/
theorem C51_deallocate_matches_allocate (h : Indirect14.Reach tr T s) {pre post : List (Ev R)} {r : R} {p : Addr}
    (ht : s.trace = pre ++ .dealloc r p :: post) :
    ∃ t₁ t₂, pre = t₁ ++ .alloc r p :: t₂ ∧ ∀ ev ∈ t₂, ¬ Spec.storageEvent p ev :=
  C04_deallocate_matches_allocate ((Indirect14.reach_iff tr T s).1 h) ht

/-- A legal call has the result given by the specification on values, for the type as this header sees it. -/
theorem C51_call_is_value_call (S : tr.Sound) (h : Indirect14.Reach tr T s) {o : Op L A V X} (e : Env)
    (hl : Spec.Legal tr (abs s) o) :
    (∀ out s', Indirect14.call tr (plain T) o e s = .ok out s' →
      Spec.step tr T.cxx14 (available s e) (e.choice 0) (abs s) o = .ret out (abs s')) ∧
    (∀ ex s', Indirect14.call tr (plain T) o e s = .threw ex s' →
      Spec.step tr T.cxx14 (available s e) (e.choice 0) (abs s) o = .threw ex (abs s')) ∧
    (Indirect14.call tr (plain T) o e s = .terminated ↔
      Spec.step tr T.cxx14 (available s e) (e.choice 0) (abs s) o = .terminated) := by
  have h' := (Indirect14.reach_iff tr T s).1 h
  rw [Indirect14.call_eq]
  exact ⟨fun _ _ hc => Indirect.call_ok_spec S h' hl hc, fun _ _ hc => Indirect.call_threw_spec S h' hl hc,
    Indirect.call_terminated_spec S h' hl⟩

end

/-! ## Instances -/

example : T.assignable = T.copyAssignable := rfl

/-- The numbers, but without copy assignment (so that assignments construct); `assignable` is still set. -/
def Tnc : TSpec Nat Nat := { T with copyAssignable := false }

/-- If the traits disagree the headers differ: with `Tnc`, `1 = 2` assigns in place with indirect.h and builds a new
object with indirect_cxx14.h. -/
example : (Indirect.call (alloc false false false) (plain Tnc) (.assignCopy 1 2) full s0 |> outcome) = 0 ∧
    (Indirect14.call (alloc false false false) (plain Tnc) (.assignCopy 1 2) full s0 |> outcome) = 1 := by decide

example : (alloc true false false).Sound ∧
    Indirect14.LegalRun (alloc true false false) Tnc (build ++ [
      (.assignCopy 1 3, bad 200), (.assignCopy 1 3, fine 201), (.assignMove 4 1, full)]) St.init :=
  ⟨alloc_sound _ _ _, by
    rw [Indirect14.legalRun_eq]; decide⟩

example : Indirect14.Reach (alloc true true true) T (st true true true) :=
  (Indirect14.reach_iff _ _ _).2 (st_reach _ _ _)

end Verif.Props
