import Verif.PDemo
import Verif.Props.IndirectGlobal
import Verif.Props.PolySafety
import Verif.Props.Indirect14
import Verif.Props.Polymorphic14
import Verif.Props.Tracking
import Verif.Proofs.Allocators

/-!
# C65: which allocator an object has

`Spec.allocOf (abs s)`: what `get_allocator()` of every object returns; `Spec.allocAfter tr al o`: the allocators after call
`o` when they were `al` before (Spec/Allocators.lean); it depends on the propagation traits and on nothing else.
-/

set_option autoImplicit false
set_option linter.unusedSectionVars false
set_option linter.unusedSimpArgs false

namespace Verif.Props
open Demo

section
variable {L A R Ty V X : Type} [DecidableEq L] [DecidableEq R] [DecidableEq Ty]
variable {tr : ATraits A R} {T : TSpec V X} {P : PSpec Ty V X} {e : Env}

/-! ## Calls -/

section
variable {s s' : St L A R (Obj V)} {o : Op L A V X}
open Indirect (abs)

/-- After a call that returns, the allocators are those given by the table; after one that throws, they are what they
were. -/
theorem C65_indirect_call (S : tr.Sound) (h : Indirect.Reach tr T s) (hl : Spec.Legal tr (abs s) o) :
    (∀ out, Indirect.call tr (plain T) o e s = .ok out s' →
      Spec.allocOf (abs s') = Spec.allocAfter tr (Spec.allocOf (abs s)) o) ∧
    (∀ ex, Indirect.call tr (plain T) o e s = .threw ex s' → Spec.allocOf (abs s') = Spec.allocOf (abs s)) := by
  have := step_alloc (tr := tr) (T := T) (m := available s e) (n := e.choice 0) (σ := abs s) o
  refine ⟨fun out hc => ?_, fun ex hc => ?_⟩
  · rw [Indirect.call_ok_spec S h hl hc] at this; exact this
  · rw [Indirect.call_threw_spec S h hl hc] at this; exact this

/-- The same for indirect_cxx14.h. -/
theorem C65_indirect14_call (S : tr.Sound) (h : Indirect14.Reach tr T s) (hl : Spec.Legal tr (abs s) o) :
    (∀ out, Indirect14.call tr (plain T) o e s = .ok out s' →
      Spec.allocOf (abs s') = Spec.allocAfter tr (Spec.allocOf (abs s)) o) ∧
    (∀ ex, Indirect14.call tr (plain T) o e s = .threw ex s' → Spec.allocOf (abs s') = Spec.allocOf (abs s)) := by
  rw [Indirect14.call_eq]
  exact C65_indirect_call S ((Indirect14.reach_iff tr T s).1 h) hl

end

section
variable {s s' : St L A R (PBody Ty V)} {o : POp L A Ty V X}
open Polymorphic (abs)

/-- The same for `polymorphic`. -/
theorem C65_polymorphic_call (S : tr.Sound) (h : Polymorphic.Reach tr P s) (hl : Spec.PLegal tr (abs s) o) :
    (∀ out, Polymorphic.call tr (plainP P) o e s = .ok out s' →
      Spec.allocOf (abs s') = Spec.pallocAfter tr (Spec.allocOf (abs s)) o) ∧
    (∀ ex, Polymorphic.call tr (plainP P) o e s = .threw ex s' → Spec.allocOf (abs s') = Spec.allocOf (abs s)) := by
  have := pstep_alloc (tr := tr) (P := P) (m := available s e) (n := e.choice 0) (σ := abs s) o
  have h1 := C40_call_is_value_call S h hl e
  refine ⟨fun out hc => ?_, fun ex hc => ?_⟩
  · rw [hc] at h1; rw [show Spec.pstep tr P _ _ _ _ = _ from h1] at this; exact this
  · rw [hc] at h1; rw [show Spec.pstep tr P _ _ _ _ = _ from h1] at this; exact this

/-- The same for polymorphic_cxx14.h and allocators that propagate on copy assignment only if they are always equal. -/
theorem C65_polymorphic14_call (S : tr.Sound) (E : tr.Equality) (hq : tr.pocca = true → tr.alwaysEqual = true)
    (h : Polymorphic14.Reach tr P s) (hl : Spec.PLegal tr (abs s) o) :
    (∀ out, Polymorphic14.call tr (plainP P) o e s = .ok out s' →
      Spec.allocOf (abs s') = Spec.pallocAfter tr (Spec.allocOf (abs s)) o) ∧
    (∀ ex, Polymorphic14.call tr (plainP P) o e s = .threw ex s' → Spec.allocOf (abs s') = Spec.allocOf (abs s)) := by
  rw [Polymorphic14.call_eq tr E P o e s (Polymorphic14.safe_of E hq s o)]
  have := C65_polymorphic_call (e := e) (s' := s') S (Polymorphic14.reach_of E hq h) ((Polymorphic14.legal_fix P.base).2 hl)
  rwa [show Spec.pallocAfter tr (Spec.allocOf (abs s)) (Polymorphic14.fix P.base o) =
    Spec.pallocAfter tr (Spec.allocOf (abs s)) o by
      cases o with
      | make x a c => cases c <;> rfl
      | _ => rfl] at this

end

/-! ## Histories -/

section
variable {s s' : St L A R (Obj V)} {cs : List (Op L A V X × Env)} {log : List (Seen (Out L A V))}
open Indirect (abs)

/-- After a history the allocators are those given by the table, call by call, leaving out the calls that threw: values,
storage and what is valueless play no role. -/
theorem C65_indirect_history (S : tr.Sound) (h : Indirect.Reach tr T s) (hl : Indirect.LegalRun tr T cs s)
    (hr : Indirect.run tr T cs s = .done log s') :
    Spec.allocOf (abs s') = Spec.allocsAfter (fun al c => Spec.allocAfter tr al c.1) cs log (Spec.allocOf (abs s)) :=
  history_alloc (C := Op L A V X × Env) (Re := Indirect.Reach tr T)
    (fun _ _ _ _ h hl hc => ⟨.ret _ _ _ h hl hc, (C65_indirect_call S h hl).1 _ hc⟩)
    (fun _ _ _ _ h hl hc => ⟨.threw _ _ _ h hl hc, (C65_indirect_call S h hl).2 _ hc⟩) h hl hr

/-- With an allocator that does not propagate, an object keeps its allocator until it is destroyed, whatever is assigned to
it or swapped with it. -/
theorem C65_indirect_fixed (S : tr.Sound) (hp : tr.pocca = false ∧ tr.pocma = false ∧ tr.pocs = false)
    (h : Indirect.Reach tr T s) (hl : Indirect.LegalRun tr T cs s) (hr : Indirect.run tr T cs s = .done log s') {z : L} {a : A}
    (hz : Spec.allocOf (abs s) z = some a) (hd : ∀ c ∈ cs, c.1 ≠ .destroy z) : Spec.allocOf (abs s') z = some a :=
  (history_keeps (K := fun s => Indirect.Reach tr T s ∧ Spec.allocOf (abs s) z = some a)
    (ok := fun c : Op L A V X × Env => c.1 ≠ .destroy z)
    (fun _ _ _ _ K hl hd hc => ⟨.ret _ _ _ K.1 hl hc, by
      rw [(C65_indirect_call S K.1 hl).1 _ hc]
      exact (fixed_after hp K.2 hl rfl).resolve_right hd⟩)
    (fun _ _ _ _ K hl _ hc => ⟨.threw _ _ _ K.1 hl hc, by rw [(C65_indirect_call S K.1 hl).2 _ hc]; exact K.2⟩)
    ⟨h, hz⟩ hl hd hr).2

/-- Every allocator in use comes from the program: it was passed to a constructor, is default constructed, or was obtained from
such by `select_on_container_copy_construction`.  (`Q` is any property of these.) -/
theorem C65_indirect_origin (S : tr.Sound) {Q : A → Prop} (hd : Q tr.dflt) (hs : ∀ a, Q a → Q (tr.socc a))
    (hl : Indirect.LegalRun tr T cs St.init) (hb : ∀ c ∈ cs, Spec.Brings Q c.1) (hr : Indirect.run tr T cs St.init = .done log s')
    {x : L} {a : A} (hx : Spec.allocOf (abs s') x = some a) : Q a := by
  rw [C65_indirect_history S .init hl hr] at hx
  exact allocsAfter_keeps (Q := fun al => ∀ x a, al x = some a → Q a) (ok := fun c : Op L A V X × Env => Spec.Brings Q c.1)
    (fun al c h hb => brings_after hd hs h hb) hb log (fun x a h => by cases h) x a hx

end

section
variable {s s' : St L A R (PBody Ty V)} {cs : List (POp L A Ty V X × Env)} {log : List (Seen (Out L A (Ty × V)))}
open Polymorphic (abs)

/-- The same for `polymorphic`. -/
theorem C65_polymorphic_history (S : tr.Sound) (h : Polymorphic.Reach tr P s) (hl : Polymorphic.LegalRun tr P cs s)
    (hr : Polymorphic.run tr P cs s = .done log s') :
    Spec.allocOf (abs s') = Spec.allocsAfter (fun al c => Spec.pallocAfter tr al c.1) cs log (Spec.allocOf (abs s)) :=
  history_alloc (C := POp L A Ty V X × Env) (Re := Polymorphic.Reach tr P)
    (fun _ _ _ _ h hl hc => ⟨.ret _ _ _ h hl hc, (C65_polymorphic_call S h hl).1 _ hc⟩)
    (fun _ _ _ _ h hl hc => ⟨.threw _ _ _ h hl hc, (C65_polymorphic_call S h hl).2 _ hc⟩) h hl hr

theorem C65_polymorphic_fixed (S : tr.Sound) (hp : tr.pocca = false ∧ tr.pocma = false ∧ tr.pocs = false)
    (h : Polymorphic.Reach tr P s) (hl : Polymorphic.LegalRun tr P cs s) (hr : Polymorphic.run tr P cs s = .done log s') {z : L}
    {a : A} (hz : Spec.allocOf (abs s) z = some a) (hd : ∀ c ∈ cs, c.1 ≠ .destroy z) : Spec.allocOf (abs s') z = some a :=
  (history_keeps (K := fun s => Polymorphic.Reach tr P s ∧ Spec.allocOf (abs s) z = some a)
    (ok := fun c : POp L A Ty V X × Env => c.1 ≠ .destroy z)
    (fun _ _ c _ K hl hd hc => ⟨.ret _ _ _ K.1 hl hc, by
      rw [(C65_polymorphic_call S K.1 hl).1 _ hc, pallocAfter_toOp]
      refine (fixed_after hp K.2 (Polymorphic.legal_toOp hl) rfl).resolve_right fun h => hd ?_
      cases hc1 : c.1 <;> rw [hc1] at h <;> simp_all [Polymorphic.toOp]⟩)
    (fun _ _ _ _ K hl _ hc => ⟨.threw _ _ _ K.1 hl hc, by rw [(C65_polymorphic_call S K.1 hl).2 _ hc]; exact K.2⟩)
    ⟨h, hz⟩ hl hd hr).2

theorem C65_polymorphic_origin (S : tr.Sound) {Q : A → Prop} (hd : Q tr.dflt) (hs : ∀ a, Q a → Q (tr.socc a))
    (hl : Polymorphic.LegalRun tr P cs St.init) (hb : ∀ c ∈ cs, Spec.PBrings Q c.1)
    (hr : Polymorphic.run tr P cs St.init = .done log s') {x : L} {a : A} (hx : Spec.allocOf (abs s') x = some a) : Q a := by
  rw [C65_polymorphic_history S .init hl hr] at hx
  refine allocsAfter_keeps (Q := fun al => ∀ x a, al x = some a → Q a) (ok := fun c : POp L A Ty V X × Env => Spec.PBrings Q c.1)
    (fun al c h hb => ?_) hb log (fun x a h => by cases h) x a hx
  rw [pallocAfter_toOp]
  refine brings_after hd hs h ?_
  cases hc1 : c.1 with
  | make x a k => rw [hc1] at hb; cases a <;> exact hb
  | _ => rw [hc1] at hb; first | exact hb | trivial

end

section
variable {s s' : St L A R (Obj V)} {cs : List (Op L A V X × Env)} {log : List (Seen (Out L A V))}
open Indirect (abs)

/-- The same for indirect_cxx14.h. -/
theorem C65_indirect14_history (S : tr.Sound) (h : Indirect14.Reach tr T s) (hl : Indirect14.LegalRun tr T cs s)
    (hr : Indirect14.run tr T cs s = .done log s') :
    Spec.allocOf (abs s') = Spec.allocsAfter (fun al c => Spec.allocAfter tr al c.1) cs log (Spec.allocOf (abs s)) := by
  rw [Indirect14.run_eq] at hr
  rw [Indirect14.legalRun_eq] at hl
  exact C65_indirect_history S ((Indirect14.reach_iff tr T s).1 h) hl hr

theorem C65_indirect14_fixed (S : tr.Sound) (hp : tr.pocca = false ∧ tr.pocma = false ∧ tr.pocs = false)
    (h : Indirect14.Reach tr T s) (hl : Indirect14.LegalRun tr T cs s) (hr : Indirect14.run tr T cs s = .done log s') {z : L}
    {a : A} (hz : Spec.allocOf (abs s) z = some a) (hd : ∀ c ∈ cs, c.1 ≠ .destroy z) : Spec.allocOf (abs s') z = some a := by
  rw [Indirect14.run_eq] at hr
  rw [Indirect14.legalRun_eq] at hl
  exact C65_indirect_fixed S hp ((Indirect14.reach_iff tr T s).1 h) hl hr hz hd

end

section
variable {s s' : St L A R (PBody Ty V)} {cs : List (POp L A Ty V X × Env)} {log : List (Seen (Out L A (Ty × V)))}
open Polymorphic (abs)

/-- The same for polymorphic_cxx14.h. -/
theorem C65_polymorphic14_history (S : tr.Sound) (E : tr.Equality) (hq : tr.pocca = true → tr.alwaysEqual = true)
    (h : Polymorphic14.Reach tr P s) (hl : Polymorphic14.LegalRun tr P cs s)
    (hr : Polymorphic14.run tr P cs s = .done log s') :
    Spec.allocOf (abs s') = Spec.allocsAfter (fun al c => Spec.pallocAfter tr al c.1) cs log (Spec.allocOf (abs s)) :=
  history_alloc (C := POp L A Ty V X × Env) (Re := Polymorphic14.Reach tr P)
    (fun _ _ _ _ h hl hc => ⟨.ret _ _ _ h hl hc, (C65_polymorphic14_call S E hq h hl).1 _ hc⟩)
    (fun _ _ _ _ h hl hc => ⟨.threw _ _ _ h hl hc, (C65_polymorphic14_call S E hq h hl).2 _ hc⟩) h hl hr

theorem C65_polymorphic14_fixed (S : tr.Sound) (E : tr.Equality)
    (hp : tr.pocca = false ∧ tr.pocma = false ∧ tr.pocs = false)
    (h : Polymorphic14.Reach tr P s) (hl : Polymorphic14.LegalRun tr P cs s)
    (hr : Polymorphic14.run tr P cs s = .done log s') {z : L} {a : A} (hz : Spec.allocOf (abs s) z = some a)
    (hd : ∀ c ∈ cs, c.1 ≠ .destroy z) : Spec.allocOf (abs s') z = some a := by
  have hq : tr.pocca = true → tr.alwaysEqual = true := by simp [hp.1]
  have h1 := Polymorphic14.run_eq E hq P cs s
  refine C65_polymorphic_fixed S hp (Polymorphic14.reach_of E hq h) (h1.2.1 hl) (h1.1 ▸ hr) hz fun c hc => ?_
  simp only [Polymorphic14.fixes, List.mem_map] at hc
  obtain ⟨c, hc, rfl⟩ := hc
  refine fun h2 => hd c hc ?_
  cases hc1 : c.1 with
  | make x a k => rw [hc1] at h2; cases k <;> cases h2
  | _ => rw [hc1] at h2; exact h2

end

/-! ## The allocators of the tests -/

section
variable {d : Tracking} {s s' : St L Tracking Tracking (Obj V)} {cs : List (Op L Tracking V X × Env)}
variable {log : List (Seen (Out L Tracking V))}
open Indirect (abs)

/-- With `TrackingAllocator`, an object counts with the same counters from its construction to its destruction. -/
theorem C65_tracking_counters (h : Indirect.Reach (Tracking.traits d) T s) (hl : Indirect.LegalRun (Tracking.traits d) T cs s)
    (hr : Indirect.run (Tracking.traits d) T cs s = .done log s') {z : L} {a : Tracking}
    (hz : Spec.allocOf (abs s) z = some a) (hd : ∀ c ∈ cs, c.1 ≠ .destroy z) : Spec.allocOf (abs s') z = some a :=
  C65_indirect_fixed (Tracking.sound d) ⟨rfl, rfl, rfl⟩ h hl hr hz hd

end

section
variable {d : Tagged} {s s' : St L Tagged Tagged (Obj V)} {cs : List (Op L Tagged V X × Env)} {log : List (Seen (Out L Tagged V))}
open Indirect (abs)

/-- With `TaggedAllocator`, an object has the same tag from its construction to its destruction. -/
theorem C65_tagged_tag (h : Indirect.Reach (Tagged.traits d) T s) (hl : Indirect.LegalRun (Tagged.traits d) T cs s)
    (hr : Indirect.run (Tagged.traits d) T cs s = .done log s') {z : L} {a : Tagged}
    (hz : Spec.allocOf (abs s) z = some a) (hd : ∀ c ∈ cs, c.1 ≠ .destroy z) : Spec.allocOf (abs s') z = some a :=
  C65_indirect_fixed (Tagged.sound d) ⟨rfl, rfl, rfl⟩ h hl hr hz hd

end
end
/-! ## Concrete cases -/

/-- Assignments and swaps between objects with allocators 5 and 6; the copy assignment throws. -/
def mixed : Hist := [
  (.assignCopy 1 3, bad 200), (.assignMove 1 3, fine 201), (.copyA 6 4 1, fine 202), (.make 7 none .default, fine 203),
  (.assignCopy 2 6, fine 204)]

-- C65_indirect_call, C65_indirect14_call: with propagation, move assignment hands over allocator 6
example : (alloc true true true).Sound ∧ Indirect.Reach (alloc true true true) T (st true true true) ∧
    Indirect14.Reach (alloc true true true) T (st true true true) ∧
    Spec.Legal (alloc true true true) (Indirect.abs (st true true true)) (.assignMove 1 3 : Op Nat Nat Nat Nat) ∧
    Spec.allocOf (Indirect.abs (st true true true)) 1 = some 5 ∧
    Spec.allocAfter (alloc true true true) (Spec.allocOf (Indirect.abs (st true true true)))
      (.assignMove 1 3 : Op Nat Nat Nat Nat) 1 = some 6 :=
  ⟨alloc_sound _ _ _, st_reach _ _ _, (Indirect14.reach_iff _ _ _).2 (st_reach _ _ _), by decide, by decide, by decide⟩

-- C65_polymorphic_call
example : (alloc true true true).Sound ∧ Polymorphic.Reach (alloc true true true) PDemo.P (PDemo.st true true true) ∧
    Spec.PLegal (alloc true true true) (Polymorphic.abs (PDemo.st true true true))
      (.swap 1 3 : POp Nat Nat Nat Nat Nat) :=
  ⟨alloc_sound _ _ _, PDemo.st_reach _ _ _, by decide⟩

-- C65_indirect_history, C65_indirect_fixed (object 1 keeps allocator 5)
example : Indirect.LegalRun (alloc false false false) T mixed (st false false false) ∧
    ends (alloc false false false) (build ++ mixed) = true ∧
    Spec.allocOf (Indirect.abs (st false false false)) 1 = some 5 ∧ ∀ c ∈ mixed, c.1 ≠ .destroy 1 :=
  ⟨by decide, by decide, by decide, by
    intro c hc
    simp only [mixed, List.mem_cons, List.not_mem_nil, or_false] at hc
    rcases hc with rfl | rfl | rfl | rfl | rfl <;> simp⟩

-- C65_indirect_origin: allocators 4, 5 and 6 are passed, 0 is the default
example : Indirect.LegalRun (alloc false true false) T (build ++ mixed) St.init ∧
    (∀ c ∈ build ++ mixed, Spec.Brings (· ≤ 6) c.1) ∧ (alloc false true false).dflt ≤ 6 ∧
    ∀ a, a ≤ 6 → (alloc false true false).socc a ≤ 6 := by
  refine ⟨by decide, ?_, by decide, ?_⟩
  · intro c hc
    simp only [build, mixed, List.cons_append, List.nil_append, List.mem_cons, List.not_mem_nil,
      or_false] at hc
    rcases hc with rfl | rfl | rfl | rfl | rfl | rfl | rfl | rfl | rfl | rfl <;> simp [Spec.Brings]
  · intro a ha; simp [alloc]; omega

-- C65_tracking_counters: object 0 is assigned from object 2, which counts elsewhere
example : Indirect.Reach (Tracking.traits a₁) T (tracked busy) ∧
    Spec.allocOf (Indirect.abs (tracked busy)) 0 = some a₁ ∧ Spec.allocOf (Indirect.abs (tracked busy)) 2 = some a₂ ∧
    Indirect.LegalRun (Tracking.traits a₁) T [(.assignMove 0 2, fine 300), (.assignCopy 0 2, fine 301)] (tracked busy) :=
  ⟨tracked_reach (by decide), by decide, by decide, by decide⟩

end Verif.Props
