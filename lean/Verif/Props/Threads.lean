import Verif.Proofs.Threads
import Verif.Props.PolyOps

/-!
# C50: threads

`cs` is an interleaving: the calls of all threads, marked with the threads that make them, in the order in which they
happen.  `owner` says which thread uses which object; `owner z = none` means that all of them use `z`, but do not change
it.  Calls are atomic here.
-/

set_option autoImplicit false
set_option linter.unusedSectionVars false
set_option linter.unusedSimpArgs false

namespace Verif.Props
open Verif

section
variable {L A R V X Th : Type} [DecidableEq L] [DecidableEq R] [DecidableEq Th]
open Indirect

/-- What the argument needs to know about `indirect`. -/
def indirectApi (tr : ATraits A R) (T : TSpec V X) (S : tr.Sound) : Api L A R (Obj V) V (Op L A V X) where
  call := call tr (plain T)
  abs := abs
  Reach := Reach tr T
  legal := Spec.Legal tr
  operands := Spec.operands
  changes := Spec.changes
  step := Spec.step tr T
  ret := fun h hl hc => .ret _ _ _ h hl hc
  threw := fun h hl hc => .threw _ _ _ h hl hc
  refines := fun {s o} e h hl => by
    have := C23_call_is_value_call S h hl e
    cases hc : call tr (plain T) o e s <;> rw [hc] at this <;> exact this
  local_legal := fun h ho => legal_agree h ho
  local_step := fun _ _ h ho => step_agree h ho
  frame_ret := fun hz h => (spec_frame hz).1 _ _ h
  frame_threw := fun hz h => (spec_frame hz).2 _ _ h
  fresh := fun h => h.traceOk.fresh

variable {tr : ATraits A R} {T : TSpec V X} {s s' u : St L A R (Obj V)}

/-- A thread sees of its calls, among calls of other threads that do not change its objects or those that they share,
exactly what it sees if it makes them alone: the same values, references and exceptions, in any interleaving; and its
objects end up the same.  Alone means: in a program that may not contain the other objects at all (`u`), with the same luck (whether storage is available and
whether operations of `T` throw). -/
theorem C50_threads_do_not_interfere (S : tr.Sound) (owner : L → Option Th) (t : Th) {cs : List (Th × Op L A V X × Env)}
    {log : List (Seen (Out L A V))} (h : Reach tr T s) (hu : Reach tr T u)
    (hsame : ∀ z, Spec.Uses owner t z → abs s z = abs u z) (hl : LegalRun tr T (cs.map (·.2)) s)
    (hr : run tr T (cs.map (·.2)) s = .done log s')
    (hown : ∀ c ∈ cs,
      ∀ z ∈ Spec.operands c.2.1, owner z = some c.1 ∨ owner z = none ∧ z ∉ Spec.changes c.2.1) {cs' : List (Op L A V X × Env)}
    (hops : cs'.map (·.1) = (Spec.callsOf t cs).map (·.1))
    (hlucks : Spec.lucksWith (call tr (plain T)) cs' u =
      Spec.ofThread t cs (Spec.lucksWith (call tr (plain T)) (cs.map (·.2)) s)) :
    LegalRun tr T cs' u ∧ ∃ u', run tr T cs' u = .done (Spec.ofThread t cs log) u' ∧
      ∀ z, Spec.Uses owner t z → abs s' z = abs u' z :=
  (indirectApi tr T S).isolated (D := Spec.Uses owner t) h hu hsame hl hr
    (uses hown fun _ _ hz => Decidable.not_not.1 fun hn => changes_operands hn hz) hops hlucks

/-- There is such a run of the thread alone. -/
theorem C50_thread_could_be_alone (S : tr.Sound) (owner : L → Option Th) (t : Th) {cs : List (Th × Op L A V X × Env)}
    {log : List (Seen (Out L A V))} (h : Reach tr T s) (hu : Reach tr T u)
    (hsame : ∀ z, Spec.Uses owner t z → abs s z = abs u z) (hl : LegalRun tr T (cs.map (·.2)) s)
    (hr : run tr T (cs.map (·.2)) s = .done log s')
    (hown : ∀ c ∈ cs,
      ∀ z ∈ Spec.operands c.2.1, owner z = some c.1 ∨ owner z = none ∧ z ∉ Spec.changes c.2.1) :
    ∃ cs' : List (Op L A V X × Env), cs'.map (·.1) = (Spec.callsOf t cs).map (·.1) ∧ LegalRun tr T cs' u ∧
      ∃ u', run tr T cs' u = .done (Spec.ofThread t cs log) u' ∧ ∀ z, Spec.Uses owner t z → abs s' z = abs u' z := by
  obtain ⟨cs', h1, h2⟩ := (indirectApi tr T S).solo_exists (D := Spec.Uses owner t) h hu hsame hl hr
    (uses hown fun _ _ hz => Decidable.not_not.1 fun hn => changes_operands hn hz)
  exact ⟨cs', h1, C50_threads_do_not_interfere S owner t h hu hsame hl hr hown h1 h2⟩

open Demo in
/-- Two threads, `true` on objects 1 and 2, `false` on 3 and 4: constructions, an assignment that throws, a
modification, and a move. -/
def twoThreads : List (Bool × Op Nat Nat Nat Nat × Env) := [
  (true, .make 1 (some 5) (.from (.arg 7)), fine 100), (false, .make 3 (some 5) (.from (.arg 8)), fine 101),
  (true, .copy 2 1, fine 102), (false, .move 4 3, fine 103), (true, .modify 1 (· + 1), fine 0),
  (false, .assignCopy 3 4, bad 105), (true, .deref 2, fine 0), (false, .deref 4, fine 0)]

open Demo in
example : LegalRun (alloc false false false) Demo.T (twoThreads.map (·.2)) St.init ∧
    ends (alloc false false false) (twoThreads.map (·.2)) = true ∧
    ∀ c ∈ twoThreads, ∀ z ∈ Spec.operands c.2.1, some (decide (z ≤ 2)) = some c.1 := by decide

open Demo in
/-- Object 3 is shared: thread `true` copies it and assigns it to object 1, thread `false` copies it and reads it. -/
example :
    let cs : List (Bool × Op Nat Nat Nat Nat × Env) := [
      (true, .copy 6 3, fine 110), (false, .copy 7 3, fine 111), (true, .assignCopy 1 3, bad 112),
      (false, .deref 3, fine 0), (true, .assignCopy 1 3, fine 113), (false, .modify 7 (· + 1), fine 0)]
    let owner : Nat → Option Bool := fun z => if z = 3 then none else some (decide (z ≤ 6))
    LegalRun (alloc false false false) Demo.T (cs.map (·.2)) s0 ∧
    ends (alloc false false false) (build ++ cs.map (·.2)) = true ∧
    ∀ c ∈ cs, ∀ z ∈ Spec.operands c.2.1, owner z = some c.1 ∨ owner z = none ∧ z ∉ Spec.changes c.2.1 := by
  decide

open Demo in
/-- Thread `false`, alone in an empty program, with the same luck (at other addresses). -/
example : Spec.lucksWith (call (alloc false false false) (plain Demo.T)) [
      (.make 3 (some 5) (.from (.arg 8)), fine 100), (.move 4 3, fine 0), (.assignCopy 3 4, bad 101), (.deref 4, fine 0)]
      (St.init : St Nat Nat Nat (Obj Nat)) =
    Spec.ofThread false twoThreads
      (Spec.lucksWith (call (alloc false false false) (plain Demo.T)) (twoThreads.map (·.2)) St.init) := by rfl

end

section
variable {L A R Ty V X Th : Type} [DecidableEq L] [DecidableEq R] [DecidableEq Ty] [DecidableEq Th]
open Polymorphic

theorem plegal_agree {tr : ATraits A R} {D : L → Prop} {σ σ' : Spec.Boxes L A (Ty × V)} {o : POp L A Ty V X}
    (h : Indirect.Agree D σ σ') (ho : ∀ z ∈ Spec.poperands o, D z) : Spec.PLegal tr σ o ↔ Spec.PLegal tr σ' o := by
  cases o with
  | make x a c =>
    cases c with
    | «from» ty u =>
      cases u <;> simp_all [Spec.PLegal, Spec.PLegalCtor, Spec.PLegalSrc, Spec.poperands, Spec.srcOperands, Spec.Dead,
        Indirect.valueOf_agree h, h x]
    | _ => simp_all [Spec.PLegal, Spec.PLegalCtor, Spec.poperands, Spec.Dead, h x]
  | copy x y => simp_all [Spec.PLegal, Spec.poperands, Spec.Dead, Spec.Live, h x, h y]
  | copyA x a y => simp_all [Spec.PLegal, Spec.poperands, Spec.Dead, Spec.Live, h x, h y]
  | move x y => simp_all [Spec.PLegal, Spec.poperands, Spec.Dead, Spec.Live, h x, h y]
  | moveA x a y => simp_all [Spec.PLegal, Spec.poperands, Spec.Dead, Spec.Live, h x, h y]
  | destroy x => simp_all [Spec.PLegal, Spec.poperands, Spec.Live, h x]
  | assignCopy x y => simp_all [Spec.PLegal, Spec.poperands, Spec.Live, h x, h y]
  | assignMove x y => simp_all [Spec.PLegal, Spec.poperands, Spec.Live, h x, h y]
  | deref x => simp_all [Spec.PLegal, Spec.poperands, Spec.Engaged, Indirect.valueOf_agree h]
  | arrow x => simp_all [Spec.PLegal, Spec.poperands, Spec.Engaged, Indirect.valueOf_agree h]
  | modify x f => simp_all [Spec.PLegal, Spec.poperands, Spec.Engaged, Indirect.valueOf_agree h]
  | valueless x => simp_all [Spec.PLegal, Spec.poperands, Spec.Live, h x]
  | getAllocator x => simp_all [Spec.PLegal, Spec.poperands, Spec.Live, h x]
  | swap x y => simp_all [Spec.PLegal, Spec.poperands, Spec.LegalSwap, h x, h y]
  | friendSwap x y => simp_all [Spec.PLegal, Spec.poperands, Spec.LegalSwap, h x, h y]

theorem pchanges_poperands {o : POp L A Ty V X} {z : L} (hz : z ∈ Spec.pchanges o) : z ∈ Spec.poperands o := by
  rw [← changes_toOp] at hz
  rw [← operands_toOp]
  exact Decidable.not_not.1 fun hn => Indirect.changes_operands hn hz

/-- What the argument needs to know about `polymorphic`. -/
def polymorphicApi (tr : ATraits A R) (P : PSpec Ty V X) (S : tr.Sound) :
    Api L A R (PBody Ty V) (Ty × V) (POp L A Ty V X) where
  call := call tr (plainP P)
  abs := abs
  Reach := Reach tr P
  legal := Spec.PLegal tr
  operands := Spec.poperands
  changes := Spec.pchanges
  step := Spec.pstep tr P
  ret := fun h hl hc => .ret _ _ _ h hl hc
  threw := fun h hl hc => .threw _ _ _ h hl hc
  refines := fun {s o} e h hl => by
    have := C40_call_is_value_call S h hl e
    cases hc : call tr (plainP P) o e s <;> rw [hc] at this <;> exact this
  local_legal := fun h ho => plegal_agree h ho
  local_step := fun m n h ho => by
    rw [← step_toOp, ← step_toOp]
    exact Indirect.step_agree h (by rw [operands_toOp]; exact ho)
  frame_ret := fun hz h => by
    rw [← step_toOp] at h
    exact (Indirect.spec_frame (by rw [changes_toOp]; exact hz)).1 _ _ h
  frame_threw := fun hz h => by
    rw [← step_toOp] at h
    exact (Indirect.spec_frame (by rw [changes_toOp]; exact hz)).2 _ _ h
  fresh := fun h => by
    obtain ⟨p, hp⟩ := (h.sim S).2.traceOk.fresh
    exact ⟨p, by simpa [view] using hp⟩

variable {tr : ATraits A R} {P : PSpec Ty V X} {s s' u : St L A R (PBody Ty V)}

/-- The same for `polymorphic`. -/
theorem C50_polymorphic_threads_do_not_interfere (S : tr.Sound) (owner : L → Option Th) (t : Th)
    {cs : List (Th × POp L A Ty V X × Env)} {log : List (Seen (Out L A (Ty × V)))} (h : Reach tr P s)
    (hu : Reach tr P u) (hsame : ∀ z, Spec.Uses owner t z → abs s z = abs u z) (hl : LegalRun tr P (cs.map (·.2)) s)
    (hr : run tr P (cs.map (·.2)) s = .done log s')
    (hown : ∀ c ∈ cs,
      ∀ z ∈ Spec.poperands c.2.1, owner z = some c.1 ∨ owner z = none ∧ z ∉ Spec.pchanges c.2.1) {cs' : List (POp L A Ty V X × Env)}
    (hops : cs'.map (·.1) = (Spec.callsOf t cs).map (·.1))
    (hlucks : Spec.lucksWith (call tr (plainP P)) cs' u =
      Spec.ofThread t cs (Spec.lucksWith (call tr (plainP P)) (cs.map (·.2)) s)) :
    LegalRun tr P cs' u ∧ ∃ u', run tr P cs' u = .done (Spec.ofThread t cs log) u' ∧
      ∀ z, Spec.Uses owner t z → abs s' z = abs u' z :=
  (polymorphicApi tr P S).isolated (D := Spec.Uses owner t) h hu hsame hl hr
    (uses hown fun _ _ hz => pchanges_poperands hz) hops hlucks

/-- The same for `polymorphic`. -/
theorem C50_polymorphic_thread_could_be_alone (S : tr.Sound) (owner : L → Option Th) (t : Th)
    {cs : List (Th × POp L A Ty V X × Env)} {log : List (Seen (Out L A (Ty × V)))} (h : Reach tr P s)
    (hu : Reach tr P u) (hsame : ∀ z, Spec.Uses owner t z → abs s z = abs u z) (hl : LegalRun tr P (cs.map (·.2)) s)
    (hr : run tr P (cs.map (·.2)) s = .done log s')
    (hown : ∀ c ∈ cs,
      ∀ z ∈ Spec.poperands c.2.1, owner z = some c.1 ∨ owner z = none ∧ z ∉ Spec.pchanges c.2.1) :
    ∃ cs' : List (POp L A Ty V X × Env), cs'.map (·.1) = (Spec.callsOf t cs).map (·.1) ∧ LegalRun tr P cs' u ∧
      ∃ u', run tr P cs' u = .done (Spec.ofThread t cs log) u' ∧ ∀ z, Spec.Uses owner t z → abs s' z = abs u' z := by
  obtain ⟨cs', h1, h2⟩ := (polymorphicApi tr P S).solo_exists (D := Spec.Uses owner t) h hu hsame hl hr
    (uses hown fun _ _ hz => pchanges_poperands hz)
  exact ⟨cs', h1, C50_polymorphic_threads_do_not_interfere S owner t h hu hsame hl hr hown h1 h2⟩

open Demo in
/-- Two threads, `true` on objects 1 and 2, `false` on 3 and 4. -/
def twoPThreads : List (Bool × POp Nat Nat Nat Nat Nat × Env) := [
  (true, .make 1 (some 5) (.from 1 (.arg 7)), fine 100), (false, .make 3 (some 5) (.from 2 (.arg 8)), fine 101),
  (true, .copy 2 1, fine 102), (false, .move 4 3, fine 103), (true, .modify 1 (fun _ v => v + 1), fine 0),
  (false, .assignCopy 3 4, bad 105), (true, .deref 2, fine 0), (false, .deref 4, fine 0)]

open Demo in
example : LegalRun (alloc false false false) PDemo.P (twoPThreads.map (·.2)) St.init ∧
    PDemo.ends (alloc false false false) (twoPThreads.map (·.2)) = true ∧
    ∀ c ∈ twoPThreads, ∀ z ∈ Spec.poperands c.2.1, some (decide (z ≤ 2)) = some c.1 := by decide

end
end Verif.Props
