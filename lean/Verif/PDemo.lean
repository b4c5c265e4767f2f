import Verif.Demo
import Verif.Proofs.PolyTransfer

/-!
# Concrete instances for `polymorphic`

A small concrete hierarchy, used beside the theorems to show that their hypotheses can be met, and for the
counterexamples.  Nothing here is used by a proof of a general theorem.
-/

set_option autoImplicit false

namespace Verif

section
variable {L A R Ty V X : Type} [DecidableEq L] [DecidableEq Ty]

instance decIs (σ : Spec.Boxes L A (Ty × V)) (y : L) (ty : Ty) : Decidable (∃ v, Spec.valueOf σ y = some (ty, v)) :=
  match h : Spec.valueOf σ y with
  | none => isFalse (by rintro ⟨v, hv⟩; cases hv)
  | some (t, v) => if ht : t = ty then isTrue ⟨v, by rw [ht]⟩ else isFalse (by rintro ⟨v, hv⟩; cases hv; exact ht rfl)

instance (σ : Spec.Boxes L A (Ty × V)) (ty : Ty) (u : Src L X) : Decidable (Spec.PLegalSrc σ ty u) := by
  cases u <;> unfold Spec.PLegalSrc <;> infer_instance

instance (σ : Spec.Boxes L A (Ty × V)) (c : PCtor L Ty X) : Decidable (Spec.PLegalCtor σ c) := by
  cases c <;> unfold Spec.PLegalCtor <;> infer_instance

instance (tr : ATraits A R) (σ : Spec.Boxes L A (Ty × V)) (o : POp L A Ty V X) : Decidable (Spec.PLegal tr σ o) := by
  cases o <;> unfold Spec.PLegal <;> infer_instance

instance [DecidableEq R] (tr : ATraits A R) (P : PSpec Ty V X) (cs : List (POp L A Ty V X × Env))
    (s : St L A R (PBody Ty V)) : Decidable (Polymorphic.LegalRun tr P cs s) :=
  decLegalWith (fun (c : POp L A Ty V X × Env) s => Polymorphic.call tr (plainP P) c.1 c.2 s)
    (fun s c => Spec.PLegal tr (Polymorphic.abs s) c.1) cs s

end

namespace PDemo
open Demo

/-- Types numbered from the base class, 0; objects hold a number.  Type `ty` adds `1000 * ty` to what it is made from, so
that objects made by different constructors differ.  Every operation throws if the environment's number is 13; a
move leaves 0 in the source, or 99 if it throws. -/
def P : PSpec Nat Nat Nat where
  base := 0
  make ty xs n := if n = 13 then .error (.user 13) else .ok (1000 * ty + match xs with
    | .none => 0
    | .pack xs => xs.sum
    | .ilist l xs => l.sum + xs.sum)
  copy _ v n := if n = 13 then .error (.user 13) else .ok v
  move _ v n := if n = 13 then (.error (.user 13), 99) else (.ok v, 0)

/-- A history. -/
abbrev Hist (L : Type := Nat) := List (POp L Nat Nat Nat Nat × Env)

section
variable {L : Type} [DecidableEq L]

/-- The state after a history (the initial state if the history does not end normally). -/
def after (tr : ATraits Nat Nat) (cs : Hist L) : St L Nat Nat (PBody Nat Nat) :=
  match Polymorphic.run tr P cs St.init with
  | .done _ s => s
  | _ => St.init

/-- The history ended normally. -/
def ends (tr : ATraits Nat Nat) (cs : Hist L) : Bool :=
  match Polymorphic.run tr P cs St.init with
  | .done _ _ => true
  | _ => false

theorem reach {tr : ATraits Nat Nat} {cs : Hist L} (hl : Polymorphic.LegalRun tr P cs St.init)
    (_h : ends tr cs = true) : Polymorphic.Reach tr P (after tr cs) := by
  unfold after
  cases hr : Polymorphic.run tr P cs St.init with
  | done log s => exact Polymorphic.Reach.run .init hl hr
  | _ => exact .init

end

/-- Objects of three types, one moved from. -/
def build : Hist := [
  (.make 1 (some 5) (.from 1 (.arg 7)), fine 100),
  (.make 2 (some 5) (.inPlace 2 [3, 5]), fine 101),
  (.make 3 (some 6) .default, fine 102),
  (.make 4 (some 6) (.ilist 2 [1, 2] []), fine 103),
  (.move 5 4, fine 104)]

/-- Five objects: 1 (allocator 5, type 1, value 1007), 2 (5, type 2, 2008), 3 (6, type 0, 0), 4 (6, valueless),
5 (6, type 2, 2003). -/
def st (pocca pocma pocs : Bool) := after (alloc pocca pocma pocs) build

theorem st_reach (a b c : Bool) : Polymorphic.Reach (alloc a b c) P (st a b c) := by
  cases a <;> cases b <;> cases c <;> exact reach (by decide) (by decide)

/-- The same objects, allocators that do not propagate. -/
abbrev s0 := st false false false

end PDemo
end Verif
