import Verif.Proofs.AwareReach
import Verif.Proofs.Block
import Verif.PDemo

/-!
# C76: owned types that use the allocator

`aware` is an owned type whose constructors are passed an allocator, the one with which `construct` is called.  What they do with it
is arbitrary.  `Spec.home` is the allocator that the object on which a call is made has afterwards.
-/

set_option autoImplicit false
set_option linter.unusedSectionVars false

namespace Verif.Props
open Verif

section
variable {L A R V X : Type} [DecidableEq L] [DecidableEq R]
variable {tr : ATraits A R} {T : AwareSpec A V X} {uses : V → R} {s : St L A R (Obj V)} {k : Op L A V X → Prop}
open Indirect

/-- indirect.h: whatever constructors of the owned type do with the allocator they are passed, a call does what it would do if all
constructors used the allocator that the object has after the call: nothing else is ever passed, no behaviour is undefined, and
exceptions leave what they leave there. -/
theorem C76_calls (S : tr.Sound) (h : Indirect.AwareReach tr T k s) (o : Op L A V X) (e : Env) (hl : Spec.Legal tr (abs s) o) :
    Spec.Does abs (Indirect.call tr (aware T) o e s)
      (Spec.step tr (T.at (Spec.home tr (abs s) o)) (available s e) (e.choice 0) (abs s) o) :=
  (Indirect.aware_does S (h.ok S) T o e hl).2

/-- indirect.h: if the owned type takes its memory from the allocator it is constructed with and never exchanges it, and client code does
not either, then in every state that a program can reach every owned object uses the memory resource of its owner's allocator. -/
theorem C76_own_memory (S : tr.Sound) (hT : Spec.Stays tr T uses) (h : Indirect.AwareReach tr T (Spec.KeepsHome uses) s) :
    Spec.AtHome tr uses (abs s) :=
  h.home S hT

/-- indirect.h: when no owner is left, nothing is left. -/
theorem C76_nothing_left (S : tr.Sound) (h : Indirect.AwareReach tr T k s) (hd : ∀ z, Spec.Dead (abs s) z) : Spec.AllGone s :=
  Conc.gone_of tr (h.ok S).1 (h.ok S).2 (fun z => by rw [hd z]; rfl)

/-- indirect_cxx14.h: as `C76_calls`. -/
theorem C76_cxx14_calls (S : tr.Sound) (h : Indirect14.AwareReach tr T k s) (o : Op L A V X) (e : Env)
    (hl : Spec.Legal tr (abs s) o) :
    Spec.Does abs (Indirect14.call tr (aware T) o e s)
      (Spec.step tr (T.at (Spec.home tr (abs s) o)).cxx14 (available s e) (e.choice 0) (abs s) o) := by
  rw [Indirect14.aware_call]
  exact C76_calls S h.to o e hl

/-- indirect_cxx14.h: as `C76_own_memory`. -/
theorem C76_cxx14_own_memory (S : tr.Sound) (hT : Spec.Stays tr T uses) (h : Indirect14.AwareReach tr T (Spec.KeepsHome uses) s) :
    Spec.AtHome tr uses (abs s) :=
  h.to.home S hT.cxx14

/-- indirect_cxx14.h: as `C76_nothing_left`. -/
theorem C76_cxx14_nothing_left (S : tr.Sound) (h : Indirect14.AwareReach tr T k s) (hd : ∀ z, Spec.Dead (abs s) z) :
    Spec.AllGone s :=
  C76_nothing_left S h.to hd

end

section
variable {L A R V X Ty : Type} [DecidableEq L] [DecidableEq R] [DecidableEq Ty]
variable {tr : ATraits A R} {P : PAwareSpec A Ty V X} {uses : Ty → V → R} {s : St L A R (PBody Ty V)} {k : POp L A Ty V X → Prop}
open Polymorphic

/-- polymorphic.h: as `C76_calls`; the control block passes the allocator on. -/
theorem C76_polymorphic_calls (S : tr.Sound) (h : Polymorphic.AwareReach tr P k s) (o : POp L A Ty V X) (e : Env)
    (hl : Spec.PLegal tr (abs s) o) :
    Spec.Does abs (Polymorphic.call tr (awareP P) o e s)
      (Spec.pstep tr (P.at (Spec.phome tr (abs s) o)) (available s e) (e.choice 0) (abs s) o) :=
  (Polymorphic.awareP_does S (h.ok S) P o e hl).2

/-- polymorphic.h: as `C76_own_memory`. -/
theorem C76_polymorphic_own_memory (S : tr.Sound) (hP : Spec.PStays tr P uses)
    (h : Polymorphic.AwareReach tr P (Spec.PKeepsHome uses) s) : Spec.AtHome tr (fun v => uses v.1 v.2) (abs s) :=
  h.home S hP

/-- polymorphic.h: as `C76_nothing_left`. -/
theorem C76_polymorphic_nothing_left (S : tr.Sound) (h : Polymorphic.AwareReach tr P k s) (hd : ∀ z, Spec.Dead (abs s) z) :
    Spec.AllGone s :=
  Composite.gone (h.ok S) hd

/-- polymorphic_cxx14.h: as `C76_polymorphic_calls`, for allocators that propagate on copy assignment only if they are always equal.
Missing: other allocators, for which it is false: see `C76_polymorphic14_violated`. -/
theorem C76_polymorphic14_calls_partial (S : tr.Sound) (E : tr.Equality) (hq : tr.pocca = true → tr.alwaysEqual = true)
    (h : Polymorphic14.AwareReach tr P k s) (o : POp L A Ty V X) (e : Env) (hl : Spec.PLegal tr (abs s) o) :
    Spec.Does abs (Polymorphic14.call tr (awareP P) o e s)
      (Spec.pstep14 tr (P.at (Spec.phome tr (abs s) o)) (available s e) (e.choice 0) (abs s) o) :=
  (Polymorphic14.awareP_does S E hq (h.ok S E hq) P o e hl).2

/-- polymorphic_cxx14.h: as `C76_own_memory`, for the same allocators. -/
theorem C76_polymorphic14_own_memory_partial (S : tr.Sound) (E : tr.Equality) (hq : tr.pocca = true → tr.alwaysEqual = true)
    (hP : Spec.PStays tr P uses) (h : Polymorphic14.AwareReach tr P (Spec.PKeepsHome uses) s) :
    Spec.AtHome tr (fun v => uses v.1 v.2) (abs s) :=
  h.home S E hq hP

/-- polymorphic_cxx14.h: as `C76_nothing_left`, for the same allocators. -/
theorem C76_polymorphic14_nothing_left_partial (S : tr.Sound) (E : tr.Equality) (hq : tr.pocca = true → tr.alwaysEqual = true)
    (h : Polymorphic14.AwareReach tr P k s) (hd : ∀ z, Spec.Dead (abs s) z) : Spec.AllGone s :=
  Composite.gone (h.ok S E hq) hd

end

/-! ## Concrete cases -/
section
open Verif.Demo (alloc alloc_sound fine bad full)

/-- Numbers that remember the memory resource that they use.  `Demo.T`, but constructors use the allocator they are passed. -/
def tagged : AwareSpec Nat (Nat × Nat) Nat where
  make a xs n := (Demo.T.make xs n).map (a, ·)
  copy a v n := (Demo.T.copy v.2 n).map (a, ·)
  move a v n := ((Demo.T.move v.2 n).1.map (a, ·), (v.1, (Demo.T.move v.2 n).2))
  copyAssign d v n := ((Demo.T.copyAssign d.2 v.2 n).1, (d.1, (Demo.T.copyAssign d.2 v.2 n).2))
  moveAssign d v n := ((Demo.T.moveAssign d.2 v.2 n).1, (d.1, (Demo.T.moveAssign d.2 v.2 n).2.1),
    (v.1, (Demo.T.moveAssign d.2 v.2 n).2.2))
  assignArg d x n := ((Demo.T.assignArg d.2 x n).1, (d.1, (Demo.T.assignArg d.2 x n).2))
  assignable := true
  copyAssignable := true

/-- The same for `polymorphic`. -/
def ptagged : PAwareSpec Nat Nat (Nat × Nat) Nat where
  base := 0
  make ty a xs n := (PDemo.P.make ty xs n).map (a, ·)
  copy ty a v n := (PDemo.P.copy ty v.2 n).map (a, ·)
  move ty a v n := ((PDemo.P.move ty v.2 n).1.map (a, ·), (v.1, (PDemo.P.move ty v.2 n).2))

theorem tagged_stays (a b c : Bool) : Spec.Stays (alloc a b c) tagged Prod.fst where
  make a xs n v hv := by obtain ⟨w, -, rfl⟩ := Spec.map_ok hv; rfl
  copy a v n w hw := by obtain ⟨u, -, rfl⟩ := Spec.map_ok hw; rfl
  move a v n w hw := by obtain ⟨u, -, rfl⟩ := Spec.map_ok hw; rfl
  movedFrom _ _ _ := rfl
  copyAssign _ _ _ := rfl
  moveAssign _ _ _ := rfl
  moveAssigned _ _ _ := rfl
  assignArg _ _ _ := rfl

theorem ptagged_stays (a b c : Bool) : Spec.PStays (alloc a b c) ptagged (fun _ => Prod.fst) where
  make ty a xs n v hv := by obtain ⟨w, -, rfl⟩ := Spec.map_ok hv; rfl
  copy ty a v n w hw := by obtain ⟨u, -, rfl⟩ := Spec.map_ok hw; rfl
  move ty a v n w hw := by obtain ⟨u, -, rfl⟩ := Spec.map_ok hw; rfl
  movedFrom _ _ _ _ := rfl

/-- What a history reaches. -/
def lastState {S O : Type} (s : S) : Run S O → S
  | .done _ s' => s'
  | _ => s

theorem ends_at {S C O : Type} {call : C → Env → S → Res S O} {legal : S → C → Prop} {ok : C → Prop} {init : S} {cs : List (C × Env)}
    (hl : LegalWith (fun c s => call c.1 c.2 s) (fun s c => legal s c.1) cs init) (hk : ∀ c ∈ cs, ok c.1) :
    Spec.ReachedBy call (fun s c => legal s c ∧ ok c) init (lastState init (runWith (fun c s => call c.1 c.2 s) cs init)) := by
  cases hr : runWith (fun c s => call c.1 c.2 s) cs init with
  | done log s' => exact Spec.ReachedBy.init.hist (hl.with hk) hr
  | _ => exact .init

/-- Object 1 has allocator 5, object 2 allocator 6; 3 is a copy of 1 and 4 a copy of 1 with allocator 7; 2 is moved to 3, whose
allocator differs; a constructor throws; 1 is copied to 2; 2 is moved to 5 with allocator 8. -/
def errand : List (Op Nat Nat (Nat × Nat) Nat × Env) := [
  (.make 1 (some 5) (.from (.arg 7)), fine 100), (.make 2 (some 6) (.inPlace [3, 5]), fine 101), (.copy 3 1, fine 102),
  (.copyA 4 7 1, fine 103), (.assignMove 3 2, fine 104), (.assignCopy 4 2, bad 105), (.assignCopy 2 1, fine 106),
  (.modify 1 (fun v => (v.1, v.2 + 1)), fine 0), (.moveA 5 8 2, fine 107), (.assignFrom 4 (.rval 1), fine 108)]

theorem errand_ok : ∀ c ∈ errand, Spec.KeepsHome Prod.fst c.1 := by
  intro c h
  simp only [errand, List.mem_cons, List.not_mem_nil, or_false] at h
  rcases h with rfl | rfl | rfl | rfl | rfl | rfl | rfl | rfl | rfl | rfl <;> first | trivial | exact fun v => rfl

def errandEnd (pocca : Bool) : St Nat Nat Nat (Obj (Nat × Nat)) :=
  lastState St.init (runWith (fun c s => Indirect.call (alloc pocca false false) (aware tagged) c.1 c.2 s) errand St.init)

theorem errand_reach (pocca : Bool) :
    Indirect.AwareReach (alloc pocca false false) tagged (Spec.KeepsHome Prod.fst) (errandEnd pocca) := by
  refine ends_at (legal := fun s o => Spec.Legal (alloc pocca false false) (Indirect.abs s) o) ?_ errand_ok
  cases pocca <;> decide +kernel

-- C76_calls, C76_own_memory
example : (alloc true false false).Sound ∧ Spec.Stays (alloc true false false) tagged Prod.fst ∧
    Indirect.AwareReach (alloc true false false) tagged (Spec.KeepsHome Prod.fst) (errandEnd true) ∧
    Indirect.abs (errandEnd true) 2 = some ⟨5, some (5, 0)⟩ ∧
    Indirect.abs (errandEnd true) 3 = some ⟨5, some (5, 8)⟩ ∧
    Indirect.abs (errandEnd true) 4 = some ⟨7, some (7, 8)⟩ ∧
    Indirect.abs (errandEnd true) 5 = some ⟨8, some (8, 7)⟩ :=
  ⟨alloc_sound _ _ _, tagged_stays _ _ _, errand_reach _, by decide +kernel, by decide +kernel, by decide +kernel, by decide +kernel⟩

/-- Everything is destroyed in the end. -/
def visit : List (Op Bool Nat (Nat × Nat) Nat × Env) := [
  (.make true (some 5) (.from (.arg 7)), fine 100), (.copyA false 6 true, fine 101), (.assignMove false true, fine 102),
  (.destroy true, full), (.destroy false, full)]

-- C76_nothing_left
example : Indirect.AwareReach (alloc false false false) tagged (Spec.KeepsHome Prod.fst)
      (lastState St.init (runWith (fun c s => Indirect.call (alloc false false false) (aware tagged) c.1 c.2 s) visit St.init)) ∧
    (∀ z, Spec.Dead (Indirect.abs
      (lastState St.init (runWith (fun c s => Indirect.call (alloc false false false) (aware tagged) c.1 c.2 s) visit St.init))) z) :=
  ⟨ends_at (legal := fun s o => Spec.Legal (alloc false false false) (Indirect.abs s) o) (by decide +kernel)
      (by intro c h; simp only [visit, List.mem_cons, List.not_mem_nil, or_false] at h
          rcases h with rfl | rfl | rfl | rfl | rfl <;> trivial), by decide +kernel⟩

def errandEnd14 : St Nat Nat Nat (Obj (Nat × Nat)) :=
  lastState St.init (runWith (fun c s => Indirect14.call (alloc true false false) (aware tagged) c.1 c.2 s) errand St.init)

-- C76_cxx14_calls, C76_cxx14_own_memory
example : Indirect14.AwareReach (alloc true false false) tagged (Spec.KeepsHome Prod.fst) errandEnd14 ∧
    Indirect.abs errandEnd14 4 = some ⟨7, some (7, 8)⟩ ∧ Indirect.abs errandEnd14 5 = some ⟨8, some (8, 7)⟩ :=
  ⟨ends_at (legal := fun s o => Spec.Legal (alloc true false false) (Indirect.abs s) o) (by decide +kernel) errand_ok,
    by decide +kernel, by decide +kernel⟩

-- C76_cxx14_nothing_left
example : Indirect14.AwareReach (alloc false false false) tagged (Spec.KeepsHome Prod.fst)
      (lastState St.init (runWith (fun c s => Indirect14.call (alloc false false false) (aware tagged) c.1 c.2 s) visit St.init)) ∧
    (∀ z, Spec.Dead (Indirect.abs
      (lastState St.init (runWith (fun c s => Indirect14.call (alloc false false false) (aware tagged) c.1 c.2 s) visit St.init))) z) :=
  ⟨ends_at (legal := fun s o => Spec.Legal (alloc false false false) (Indirect.abs s) o) (by decide +kernel)
      (by intro c h; simp only [visit, List.mem_cons, List.not_mem_nil, or_false] at h
          rcases h with rfl | rfl | rfl | rfl | rfl <;> trivial), by decide +kernel⟩

/-- As `errand`, with objects of types 1 and 2. -/
def perrand : List (POp Nat Nat Nat (Nat × Nat) Nat × Env) := [
  (.make 1 (some 5) (.from 1 (.arg 7)), fine 100), (.make 2 (some 6) (.inPlace 2 [3, 5]), fine 101), (.copy 3 1, fine 102),
  (.copyA 4 7 1, fine 103), (.assignMove 3 2, fine 104), (.assignCopy 4 2, bad 105), (.assignCopy 2 1, fine 106),
  (.modify 1 (fun _ v => (v.1, v.2 + 1)), fine 0), (.moveA 5 8 2, fine 107)]

theorem perrand_ok : ∀ c ∈ perrand, Spec.PKeepsHome (fun _ => Prod.fst) c.1 := by
  intro c h
  simp only [perrand, List.mem_cons, List.not_mem_nil, or_false] at h
  rcases h with rfl | rfl | rfl | rfl | rfl | rfl | rfl | rfl | rfl <;> first | trivial | exact fun ty v => rfl

def perrandEnd : St Nat Nat Nat (PBody Nat (Nat × Nat)) :=
  lastState St.init (runWith (fun c s => Polymorphic.call (alloc true false false) (awareP ptagged) c.1 c.2 s) perrand St.init)

-- C76_polymorphic_calls, C76_polymorphic_own_memory
example : Spec.PStays (alloc true false false) ptagged (fun _ => Prod.fst) ∧
    Polymorphic.AwareReach (alloc true false false) ptagged (Spec.PKeepsHome (fun _ => Prod.fst)) perrandEnd ∧
    Polymorphic.abs perrandEnd 3 = some ⟨5, some (2, (5, 2008))⟩ ∧ Polymorphic.abs perrandEnd 4 = some ⟨7, some (1, (7, 1007))⟩ ∧
    Polymorphic.abs perrandEnd 5 = some ⟨8, some (1, (8, 1007))⟩ :=
  ⟨ptagged_stays _ _ _,
    ends_at (legal := fun s o => Spec.PLegal (alloc true false false) (Polymorphic.abs s) o) (by decide +kernel) perrand_ok,
    by decide +kernel, by decide +kernel, by decide +kernel⟩

/-- As `visit`. -/
def pvisit : List (POp Bool Nat Nat (Nat × Nat) Nat × Env) := [
  (.make true (some 5) (.from 1 (.arg 7)), fine 100), (.copyA false 6 true, fine 101), (.assignMove false true, fine 102),
  (.destroy true, full), (.destroy false, full)]

theorem pvisit_ok : ∀ c ∈ pvisit, Spec.PKeepsHome (fun _ => Prod.fst) c.1 := by
  intro c h
  simp only [pvisit, List.mem_cons, List.not_mem_nil, or_false] at h
  rcases h with rfl | rfl | rfl | rfl | rfl <;> trivial

-- C76_polymorphic_nothing_left
example : Polymorphic.AwareReach (alloc false false false) ptagged (Spec.PKeepsHome (fun _ => Prod.fst))
      (lastState St.init (runWith (fun c s => Polymorphic.call (alloc false false false) (awareP ptagged) c.1 c.2 s) pvisit St.init)) ∧
    (∀ z, Spec.Dead (Polymorphic.abs
      (lastState St.init (runWith (fun c s => Polymorphic.call (alloc false false false) (awareP ptagged) c.1 c.2 s) pvisit St.init))) z) :=
  ⟨ends_at (legal := fun s o => Spec.PLegal (alloc false false false) (Polymorphic.abs s) o) (by decide +kernel) pvisit_ok,
    by decide +kernel⟩

def perrandEnd14 : St Nat Nat Nat (PBody Nat (Nat × Nat)) :=
  lastState St.init (runWith (fun c s => Polymorphic14.call (alloc false true false) (awareP ptagged) c.1 c.2 s) perrand St.init)

-- C76_polymorphic14_calls_partial, C76_polymorphic14_own_memory_partial
example : ((alloc false true false).pocca = true → (alloc false true false).alwaysEqual = true) ∧
    Polymorphic14.AwareReach (alloc false true false) ptagged (Spec.PKeepsHome (fun _ => Prod.fst)) perrandEnd14 ∧
    Polymorphic.abs perrandEnd14 3 = some ⟨6, some (2, (6, 2008))⟩ ∧ Polymorphic.abs perrandEnd14 5 = some ⟨8, some (1, (8, 1007))⟩ :=
  ⟨by decide, ends_at (legal := fun s o => Spec.PLegal (alloc false true false) (Polymorphic.abs s) o) (by decide +kernel) perrand_ok,
    by decide +kernel, by decide +kernel⟩

-- C76_polymorphic14_nothing_left_partial
example : Polymorphic14.AwareReach (alloc false false false) ptagged (Spec.PKeepsHome (fun _ => Prod.fst))
      (lastState St.init (runWith (fun c s => Polymorphic14.call (alloc false false false) (awareP ptagged) c.1 c.2 s) pvisit St.init)) ∧
    (∀ z, Spec.Dead (Polymorphic.abs
      (lastState St.init (runWith (fun c s => Polymorphic14.call (alloc false false false) (awareP ptagged) c.1 c.2 s) pvisit St.init))) z) :=
  ⟨ends_at (legal := fun s o => Spec.PLegal (alloc false false false) (Polymorphic.abs s) o) (by decide +kernel) pvisit_ok,
    by decide +kernel⟩

/-- An object with allocator 5 is moved to a new one with allocator 6. -/
def pbreach : List (POp Nat Nat Nat (Nat × Nat) Nat × Env) := [(.make 1 (some 5) (.from 1 (.arg 7)), fine 100), (.moveA 2 6 1, fine 101)]

def pbreachEnd : St Nat Nat Nat (PBody Nat (Nat × Nat)) :=
  lastState St.init (runWith (fun c s => Polymorphic14.call (alloc true false false) (awareP ptagged) c.1 c.2 s) pbreach St.init)

/-- polymorphic_cxx14.h: with an allocator that propagates on copy assignment and can compare unequal, there are programs within all
preconditions after which an owned object uses memory of another resource than its owner's. -/
theorem C76_polymorphic14_violated : ∃ (tr : ATraits Nat Nat) (P : PAwareSpec Nat Nat (Nat × Nat) Nat) (uses : Nat → Nat × Nat → Nat)
    (s : St Nat Nat Nat (PBody Nat (Nat × Nat))), tr.Sound ∧ tr.Equality ∧ Spec.PStays tr P uses ∧
      Polymorphic14.AwareReach tr P (Spec.PKeepsHome uses) s ∧ ¬ Spec.AtHome tr (fun v => uses v.1 v.2) (Polymorphic.abs s) := by
  refine ⟨alloc true false false, ptagged, fun _ => Prod.fst, pbreachEnd, alloc_sound _ _ _, ⟨by simp [alloc], by simp [alloc]⟩,
    ptagged_stays _ _ _,
    ends_at (legal := fun s o => Spec.PLegal (alloc true false false) (Polymorphic.abs s) o) (by decide +kernel) ?_, fun h => ?_⟩
  · intro c h
    simp only [pbreach, List.mem_cons, List.not_mem_nil, or_false] at h
    rcases h with rfl | rfl <;> trivial
  · have h2 : Polymorphic.abs pbreachEnd 2 = some ⟨6, some (1, (5, 1007))⟩ := by decide +kernel
    exact absurd (h 2 6 _ h2) (by decide)

end
end Verif.Props
