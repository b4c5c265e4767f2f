import Verif.Proofs.CountingReach
import Verif.PDemo

/-!
# C77: calls of `construct` and `destroy`

`counting` and `countingP` are owned types with an allocator that records calls of its members `construct` and `destroy`.
`Spec.slotAt` follows the life of a block of storage through the events; `Spec.customCalls` counts calls.
-/

set_option autoImplicit false
set_option linter.unusedSectionVars false

namespace Verif.Props
open Verif
open Verif.Spec (Paired Owns customCalls slotAt)

section
variable {L A R V X : Type} [DecidableEq L] [DecidableEq R] {tr : ATraits A R} {T : TSpec V X} {s : St L A R (Obj V)}
open Indirect

/-- indirect.h: an allocator with its own `construct` and `destroy` that construct and destroy changes nothing else: every call does what
it does with the default ones, no behaviour is undefined. -/
theorem C77_calls (S : tr.Sound) (h : Indirect.CountReach tr T s) (o : Op L A V X) (e : Env) (hl : Spec.Legal tr (abs s) o) :
    Spec.Does abs (Indirect.call tr (counting tr (plain T)) o e s) (Spec.step tr T (available s e) (e.choice 0) (abs s) o) :=
  (Indirect.count_does S (h.ok S) T o e hl).2

/-- indirect.h: in every state that a program can reach, every owned object was constructed with `construct` in storage of the same
memory resource, and everything else that was constructed with `construct` was destroyed with `destroy`, by an allocator with the same
memory resource, before its storage was deallocated. -/
theorem C77_paired (S : tr.Sound) (h : Indirect.CountReach tr T s) : Paired tr .object s := (h.ok S).paired

/-- indirect.h: for every memory resource, `construct` was called as often as `destroy` and once more for every object that is owned
now. -/
theorem C77_counts (S : tr.Sound) (h : Indirect.CountReach tr T s) (r : R) :
    ∃ ps : List Addr, ps.Nodup ∧ (∀ p, p ∈ ps ↔ ∃ z a, Owns s z p a ∧ tr.res a = r) ∧
      customCalls .construct .object r s.trace = customCalls .destroy .object r s.trace + ps.length :=
  Counted.counts (h.ok S).paired r

/-- indirect.h: when no owner is left, `construct` was called as often as `destroy`. -/
theorem C77_balanced (S : tr.Sound) (h : Indirect.CountReach tr T s) (hd : ∀ z, Spec.Dead (abs s) z) (r : R) :
    customCalls .construct .object r s.trace = customCalls .destroy .object r s.trace :=
  Counted.balanced (h.ok S).paired (fun z => abs_dead (hd z)) r

/-- indirect_cxx14.h: as `C77_calls`. -/
theorem C77_cxx14_calls (S : tr.Sound) (h : Indirect14.CountReach tr T s) (o : Op L A V X) (e : Env) (hl : Spec.Legal tr (abs s) o) :
    Spec.Does abs (Indirect14.call tr (counting tr (plain T)) o e s)
      (Spec.step tr T.cxx14 (available s e) (e.choice 0) (abs s) o) := by
  rw [Indirect14.count_call]
  exact C77_calls S h.to o e hl

/-- indirect_cxx14.h: as `C77_paired`. -/
theorem C77_cxx14_paired (S : tr.Sound) (h : Indirect14.CountReach tr T s) : Paired tr .object s := C77_paired S h.to

/-- indirect_cxx14.h: as `C77_counts`. -/
theorem C77_cxx14_counts (S : tr.Sound) (h : Indirect14.CountReach tr T s) (r : R) :
    ∃ ps : List Addr, ps.Nodup ∧ (∀ p, p ∈ ps ↔ ∃ z a, Owns s z p a ∧ tr.res a = r) ∧
      customCalls .construct .object r s.trace = customCalls .destroy .object r s.trace + ps.length :=
  C77_counts S h.to r

/-- indirect_cxx14.h: as `C77_balanced`. -/
theorem C77_cxx14_balanced (S : tr.Sound) (h : Indirect14.CountReach tr T s) (hd : ∀ z, Spec.Dead (abs s) z) (r : R) :
    customCalls .construct .object r s.trace = customCalls .destroy .object r s.trace :=
  C77_balanced S h.to hd r

end

section
variable {L A R V X Ty : Type} [DecidableEq L] [DecidableEq R] [DecidableEq Ty] {tr : ATraits A R} {P : PSpec Ty V X}
variable {s : St L A R (PBody Ty V)}
open Polymorphic

/-- polymorphic.h: as `C77_calls`. -/
theorem C77_polymorphic_calls (S : tr.Sound) (h : Polymorphic.CountReach tr P s) (o : POp L A Ty V X) (e : Env)
    (hl : Spec.PLegal tr (abs s) o) :
    Spec.Does abs (Polymorphic.call tr (countingP tr (plainP P)) o e s) (Spec.pstep tr P (available s e) (e.choice 0) (abs s) o) :=
  (Polymorphic.count_does S (h.ok S) P o e hl).2

/-- polymorphic.h: as `C77_paired`, for owned objects.  Missing: control blocks, for which it is false: see
`C77_polymorphic_blocks`. -/
theorem C77_polymorphic_paired_partial (S : tr.Sound) (h : Polymorphic.CountReach tr P s) : Paired tr .object s := (h.ok S).paired

/-- polymorphic.h: as `C77_counts`, for owned objects.  Missing: control blocks. -/
theorem C77_polymorphic_counts_partial (S : tr.Sound) (h : Polymorphic.CountReach tr P s) (r : R) :
    ∃ ps : List Addr, ps.Nodup ∧ (∀ p, p ∈ ps ↔ ∃ z a, Owns s z p a ∧ tr.res a = r) ∧
      customCalls .construct .object r s.trace = customCalls .destroy .object r s.trace + ps.length :=
  Counted.counts (h.ok S).paired r

/-- polymorphic.h: as `C77_balanced`, for owned objects.  Missing: control blocks. -/
theorem C77_polymorphic_balanced_partial (S : tr.Sound) (h : Polymorphic.CountReach tr P s) (hd : ∀ z, Spec.Dead (abs s) z) (r : R) :
    customCalls .construct .object r s.trace = customCalls .destroy .object r s.trace :=
  Counted.balanced (h.ok S).paired (fun z => Indirect.abs_dead (s := view s) (by rw [abs_view]; exact hd z)) r

/-- polymorphic.h: what happens to control blocks instead: one is constructed with `construct` for every owned object, and none is ever
destroyed with `destroy`. -/
theorem C77_polymorphic_blocks (S : tr.Sound) (h : Polymorphic.CountReach tr P s) (r : R) :
    customCalls .construct .block r s.trace = customCalls .construct .object r s.trace ∧
    customCalls .destroy .block r s.trace = 0 :=
  ⟨((h.ok S).1.2 r).2, ((h.ok S).1.2 r).1⟩

/-- polymorphic_cxx14.h: as `C77_polymorphic_calls`, for allocators that propagate on copy assignment only if they are always equal.
Missing: other allocators (see `C76_polymorphic14_violated` and C39). -/
theorem C77_polymorphic14_calls_partial (S : tr.Sound) (E : tr.Equality) (hq : tr.pocca = true → tr.alwaysEqual = true)
    (h : Polymorphic14.CountReach tr P s) (o : POp L A Ty V X) (e : Env) (hl : Spec.PLegal tr (abs s) o) :
    Spec.Does abs (Polymorphic14.call tr (countingP tr (plainP P)) o e s)
      (Spec.pstep14 tr P (available s e) (e.choice 0) (abs s) o) :=
  (Polymorphic14.count_does S E hq (h.ok S E hq) P o e hl).2

/-- polymorphic_cxx14.h: as `C77_polymorphic_paired_partial`, for the same allocators. -/
theorem C77_polymorphic14_paired_partial (S : tr.Sound) (E : tr.Equality) (hq : tr.pocca = true → tr.alwaysEqual = true)
    (h : Polymorphic14.CountReach tr P s) : Paired tr .object s := (h.ok S E hq).paired

/-- polymorphic_cxx14.h: as `C77_polymorphic_counts_partial`, for the same allocators. -/
theorem C77_polymorphic14_counts_partial (S : tr.Sound) (E : tr.Equality) (hq : tr.pocca = true → tr.alwaysEqual = true)
    (h : Polymorphic14.CountReach tr P s) (r : R) :
    ∃ ps : List Addr, ps.Nodup ∧ (∀ p, p ∈ ps ↔ ∃ z a, Owns s z p a ∧ tr.res a = r) ∧
      customCalls .construct .object r s.trace = customCalls .destroy .object r s.trace + ps.length :=
  Counted.counts (h.ok S E hq).paired r

/-- polymorphic_cxx14.h: as `C77_polymorphic_balanced_partial`, for the same allocators. -/
theorem C77_polymorphic14_balanced_partial (S : tr.Sound) (E : tr.Equality) (hq : tr.pocca = true → tr.alwaysEqual = true)
    (h : Polymorphic14.CountReach tr P s) (hd : ∀ z, Spec.Dead (abs s) z) (r : R) :
    customCalls .construct .object r s.trace = customCalls .destroy .object r s.trace :=
  Counted.balanced (h.ok S E hq).paired (fun z => Indirect.abs_dead (s := view s) (by rw [abs_view]; exact hd z)) r

/-- polymorphic_cxx14.h: as `C77_polymorphic_blocks`, for the same allocators. -/
theorem C77_polymorphic14_blocks_partial (S : tr.Sound) (E : tr.Equality) (hq : tr.pocca = true → tr.alwaysEqual = true)
    (h : Polymorphic14.CountReach tr P s) (r : R) :
    customCalls .construct .block r s.trace = customCalls .construct .object r s.trace ∧
    customCalls .destroy .block r s.trace = 0 :=
  ⟨((h.ok S E hq).1.2 r).2, ((h.ok S E hq).1.2 r).1⟩

end

/-! ## Concrete cases -/
section
open Verif.Demo (alloc alloc_sound fine bad full)

/-- What a history reaches. -/
def countEnd {S O : Type} (s : S) : Run S O → S
  | .done _ s' => s'
  | _ => s

theorem count_ends {S C O : Type} {call : C → Env → S → Res S O} {legal : S → C → Prop} {init : S} {cs : List (C × Env)}
    (hl : LegalWith (fun c s => call c.1 c.2 s) (fun s c => legal s c.1) cs init) :
    Spec.ReachedBy call legal init (countEnd init (runWith (fun c s => call c.1 c.2 s) cs init)) := by
  cases hr : runWith (fun c s => call c.1 c.2 s) cs init with
  | done log s' => exact Spec.ReachedBy.init.hist hl hr
  | _ => exact .init

/-- Object 1 has allocator 5, object 2 allocator 6; 3 is a copy of 1; 2 is moved to 3, whose allocator differs; a constructor throws;
there is no storage; 1 is copied to 2 (allocators differ); 2 is moved to 4, which takes its storage over; 1 is destroyed. -/
def tally : List (Op Nat Nat Nat Nat × Env) := [
  (.make 1 (some 5) (.from (.arg 7)), fine 100), (.make 2 (some 6) (.inPlace [3, 5]), fine 101), (.copy 3 1, fine 102),
  (.assignMove 3 2, fine 103), (.copy 4 1, bad 104), (.copy 4 1, full), (.assignCopy 2 1, fine 105), (.move 4 2, full), (.destroy 1, full)]

def tallyEnd : St Nat Nat Nat (Obj Nat) :=
  countEnd St.init (runWith (fun c s => Indirect.call (alloc false false false) (counting (alloc false false false) (plain Demo.T)) c.1 c.2 s)
    tally St.init)

-- C77_calls, C77_paired, C77_counts
example : (alloc false false false).Sound ∧ Indirect.CountReach (alloc false false false) Demo.T tallyEnd ∧
    tallyEnd.hs 4 = some ⟨some 105, 6⟩ ∧ tallyEnd.hs 3 = some ⟨some 103, 5⟩ ∧
    customCalls .construct .object 5 tallyEnd.trace = 3 ∧ customCalls .destroy .object 5 tallyEnd.trace = 2 ∧
    customCalls .construct .object 6 tallyEnd.trace = 2 ∧ customCalls .destroy .object 6 tallyEnd.trace = 1 ∧
    slotAt 103 .object tallyEnd.trace = some (.filled 5) ∧ slotAt 104 .object tallyEnd.trace = some .free :=
  ⟨alloc_sound _ _ _, count_ends (by decide +kernel), by decide +kernel, by decide +kernel, by decide +kernel, by decide +kernel,
    by decide +kernel, by decide +kernel, by decide +kernel, by decide +kernel⟩

/-- Everything is destroyed in the end. -/
def settle : List (Op Bool Nat Nat Nat × Env) := [
  (.make true (some 5) (.from (.arg 7)), fine 100), (.copyA false 6 true, fine 101), (.assignMove false true, fine 102),
  (.destroy true, full), (.destroy false, full)]

def settleEnd : St Bool Nat Nat (Obj Nat) :=
  countEnd St.init (runWith (fun c s => Indirect.call (alloc false false false) (counting (alloc false false false) (plain Demo.T)) c.1 c.2 s)
    settle St.init)

-- C77_balanced
example : Indirect.CountReach (alloc false false false) Demo.T settleEnd ∧ (∀ z, Spec.Dead (Indirect.abs settleEnd) z) ∧
    customCalls .construct .object 6 settleEnd.trace = 2 :=
  ⟨count_ends (by decide +kernel), by decide +kernel, by decide +kernel⟩

def tallyEnd14 : St Nat Nat Nat (Obj Nat) :=
  countEnd St.init (runWith (fun c s => Indirect14.call (alloc false false false) (counting (alloc false false false) (plain Demo.T)) c.1 c.2 s)
    tally St.init)

-- C77_cxx14_calls, C77_cxx14_paired, C77_cxx14_counts
example : Indirect14.CountReach (alloc false false false) Demo.T tallyEnd14 ∧ tallyEnd14.hs 4 = some ⟨some 105, 6⟩ ∧
    customCalls .construct .object 5 tallyEnd14.trace = 3 ∧ customCalls .destroy .object 5 tallyEnd14.trace = 2 :=
  ⟨count_ends (by decide +kernel), by decide +kernel, by decide +kernel, by decide +kernel⟩

def settleEnd14 : St Bool Nat Nat (Obj Nat) :=
  countEnd St.init (runWith (fun c s => Indirect14.call (alloc false false false) (counting (alloc false false false) (plain Demo.T)) c.1 c.2 s)
    settle St.init)

-- C77_cxx14_balanced
example : Indirect14.CountReach (alloc false false false) Demo.T settleEnd14 ∧ (∀ z, Spec.Dead (Indirect.abs settleEnd14) z) ∧
    customCalls .construct .object 6 settleEnd14.trace = 2 :=
  ⟨count_ends (by decide +kernel), by decide +kernel, by decide +kernel⟩

/-- As `tally`, with objects of types 1 and 2. -/
def ptally : List (POp Nat Nat Nat Nat Nat × Env) := [
  (.make 1 (some 5) (.from 1 (.arg 7)), fine 100), (.make 2 (some 6) (.inPlace 2 [3, 5]), fine 101), (.copy 3 1, fine 102),
  (.assignMove 3 2, fine 103), (.copy 4 1, bad 104), (.copy 4 1, full), (.assignCopy 2 1, fine 105), (.move 4 2, full), (.destroy 1, full)]

def ptallyEnd : St Nat Nat Nat (PBody Nat Nat) :=
  countEnd St.init (runWith (fun c s => Polymorphic.call (alloc false false false) (countingP (alloc false false false) (plainP PDemo.P)) c.1 c.2 s)
    ptally St.init)

-- C77_polymorphic_calls, C77_polymorphic_paired_partial, C77_polymorphic_counts_partial, C77_polymorphic_blocks
example : Polymorphic.CountReach (alloc false false false) PDemo.P ptallyEnd ∧ ptallyEnd.hs 4 = some ⟨some 105, 6⟩ ∧
    customCalls .construct .object 5 ptallyEnd.trace = 3 ∧ customCalls .destroy .object 5 ptallyEnd.trace = 2 ∧
    customCalls .construct .block 5 ptallyEnd.trace = 3 ∧ slotAt 103 .object ptallyEnd.trace = some (.filled 5) :=
  ⟨count_ends (by decide +kernel), by decide +kernel, by decide +kernel, by decide +kernel, by decide +kernel, by decide +kernel⟩

/-- As `settle`. -/
def psettle : List (POp Bool Nat Nat Nat Nat × Env) := [
  (.make true (some 5) (.from 1 (.arg 7)), fine 100), (.copyA false 6 true, fine 101), (.assignMove false true, fine 102),
  (.destroy true, full), (.destroy false, full)]

def psettleEnd : St Bool Nat Nat (PBody Nat Nat) :=
  countEnd St.init (runWith (fun c s => Polymorphic.call (alloc false false false) (countingP (alloc false false false) (plainP PDemo.P)) c.1 c.2 s)
    psettle St.init)

theorem psettle_reach : Polymorphic.CountReach (alloc false false false) PDemo.P psettleEnd := count_ends (by decide +kernel)

theorem psettle_dead : ∀ z, Spec.Dead (Polymorphic.abs psettleEnd) z := by decide +kernel

-- C77_polymorphic_balanced_partial
example : Polymorphic.CountReach (alloc false false false) PDemo.P psettleEnd ∧ (∀ z, Spec.Dead (Polymorphic.abs psettleEnd) z) ∧
    customCalls .construct .object 6 psettleEnd.trace = 2 :=
  ⟨psettle_reach, psettle_dead, by decide +kernel⟩

/-- polymorphic.h: there are programs that destroy all their objects, after which `construct` was called for control blocks and `destroy`
was not: not everything that `construct` constructed was destroyed with `destroy`. -/
theorem C77_polymorphic_violated : ∃ (tr : ATraits Nat Nat) (P : PSpec Nat Nat Nat) (s : St Bool Nat Nat (PBody Nat Nat)) (r : Nat),
    tr.Sound ∧ Polymorphic.CountReach tr P s ∧ (∀ z, Spec.Dead (Polymorphic.abs s) z) ∧ ¬ Paired tr .block s ∧
    customCalls .construct .block r s.trace = 2 ∧ customCalls .destroy .block r s.trace = 0 := by
  refine ⟨alloc false false false, PDemo.P, psettleEnd, 6, alloc_sound _ _ _, psettle_reach, psettle_dead, fun h => ?_, by decide +kernel,
    by decide +kernel⟩
  have h1 := h.2 101 (fun z a => by
    have : ∀ z, psettleEnd.hs z = none := by decide +kernel
    rw [Owns, this z]; simp)
  have h2 : slotAt 101 .block psettleEnd.trace = none := by decide +kernel
  rw [h2] at h1; cases h1

def ptallyEnd14 : St Nat Nat Nat (PBody Nat Nat) :=
  countEnd St.init (runWith (fun c s => Polymorphic14.call (alloc false false false) (countingP (alloc false false false) (plainP PDemo.P)) c.1 c.2 s)
    ptally St.init)

theorem alloc_equality (a b c : Bool) : (alloc a b c).Equality := ⟨by simp [alloc], by simp [alloc]⟩

-- C77_polymorphic14_calls_partial, C77_polymorphic14_paired_partial, C77_polymorphic14_counts_partial, C77_polymorphic14_blocks_partial
example : (alloc false false false).Equality ∧ ((alloc false false false).pocca = true → (alloc false false false).alwaysEqual = true) ∧
    Polymorphic14.CountReach (alloc false false false) PDemo.P ptallyEnd14 ∧ ptallyEnd14.hs 4 = some ⟨some 105, 6⟩ ∧
    customCalls .construct .object 5 ptallyEnd14.trace = 3 ∧ customCalls .destroy .object 5 ptallyEnd14.trace = 2 ∧
    customCalls .construct .block 5 ptallyEnd14.trace = 3 :=
  ⟨alloc_equality _ _ _, by decide, count_ends (by decide +kernel), by decide +kernel, by decide +kernel, by decide +kernel, by decide +kernel⟩

def psettleEnd14 : St Bool Nat Nat (PBody Nat Nat) :=
  countEnd St.init (runWith (fun c s => Polymorphic14.call (alloc false false false) (countingP (alloc false false false) (plainP PDemo.P)) c.1 c.2 s)
    psettle St.init)

theorem psettle14_reach : Polymorphic14.CountReach (alloc false false false) PDemo.P psettleEnd14 := count_ends (by decide +kernel)

theorem psettle14_dead : ∀ z, Spec.Dead (Polymorphic.abs psettleEnd14) z := by decide +kernel

-- C77_polymorphic14_balanced_partial
example : Polymorphic14.CountReach (alloc false false false) PDemo.P psettleEnd14 ∧ (∀ z, Spec.Dead (Polymorphic.abs psettleEnd14) z) ∧
    customCalls .construct .object 6 psettleEnd14.trace = 2 :=
  ⟨psettle14_reach, psettle14_dead, by decide +kernel⟩

/-- polymorphic_cxx14.h: as `C77_polymorphic_violated`. -/
theorem C77_polymorphic14_violated : ∃ (tr : ATraits Nat Nat) (P : PSpec Nat Nat Nat) (s : St Bool Nat Nat (PBody Nat Nat)) (r : Nat),
    tr.Sound ∧ Polymorphic14.CountReach tr P s ∧ (∀ z, Spec.Dead (Polymorphic.abs s) z) ∧ ¬ Paired tr .block s ∧
    customCalls .construct .block r s.trace = 2 ∧ customCalls .destroy .block r s.trace = 0 := by
  refine ⟨alloc false false false, PDemo.P, psettleEnd14, 6, alloc_sound _ _ _, psettle14_reach, psettle14_dead, fun h => ?_,
    by decide +kernel, by decide +kernel⟩
  have h1 := h.2 101 (fun z a => by
    have : ∀ z, psettleEnd14.hs z = none := by decide +kernel
    rw [Owns, this z]; simp)
  have h2 : slotAt 101 .block psettleEnd14.trace = none := by decide +kernel
  rw [h2] at h1; cases h1

end
end Verif.Props
