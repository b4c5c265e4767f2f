import Verif.Props.Concurrent
import Verif.Proofs.Fine14
import Verif.Props.Polymorphic14

/-!
# C66 for the C++14 headers

As `Props/Concurrent.lean`.  For polymorphic_cxx14.h allocators propagate on copy assignment only if they are always equal;
otherwise not even a single thread is safe (C41).
-/

set_option autoImplicit false
set_option linter.unusedSectionVars false
set_option linter.unusedSimpArgs false

namespace Verif.Props
open Verif

section
variable {L A R V X Th : Type} [DecidableEq L] [DecidableEq R] [DecidableEq Th]
open Indirect
variable {tr : ATraits A R} {T : TSpec V X} {s : St L A R (Obj V)} {owner : L → Option Th}
  {next : Th → List (Seen (Out L A V)) → Option (Op L A V X)} {sched : List (Th × Env)}
  {c : Conf Th L A R (Obj V) (Out L A V)}

/-- No interleaving of such threads has undefined behaviour: in particular no object is used before or after its lifetime,
no storage is used after it has been released, or released twice, or to the wrong memory resource. -/
theorem C66_indirect14_no_undefined_behaviour (S : tr.Sound) (h : Indirect14.Reach tr T s)
    (hF : ∀ i, Spec.Fair (Spec.step tr T.cxx14) (Spec.Legal tr) Spec.operands Spec.changes owner next (abs s) i) (u : UB) :
    Conf.exec (Fine.Indirect14.step tr (Fine.plain T)) next sched (Conf.start s) ≠ .ub u :=
  Conc.no_ub (api := Conc.indirect14 tr T S) (((Indirect14.reach_iff tr T s).1 h).inv S) hF sched u

/-- There is never a data race. -/
theorem C66_indirect14_no_data_race (S : tr.Sound) (h : Indirect14.Reach tr T s)
    (hF : ∀ i, Spec.Fair (Spec.step tr T.cxx14) (Spec.Legal tr) Spec.operands Spec.changes owner next (abs s) i)
    (hr : Conf.exec (Fine.Indirect14.step tr (Fine.plain T)) next sched (Conf.start s) = .running c) : ¬ Spec.Race c :=
  Conc.no_race (api := Conc.indirect14 tr T S) (((Indirect14.reach_iff tr T s).1 h).inv S) hF hr

/-- Every thread has seen of its calls what it can see if it is alone; and when it is between two calls, the objects that it
uses have the values that they have then. -/
theorem C66_indirect14_threads_run_as_if_alone (S : tr.Sound) (h : Indirect14.Reach tr T s)
    (hF : ∀ i, Spec.Fair (Spec.step tr T.cxx14) (Spec.Legal tr) Spec.operands Spec.changes owner next (abs s) i)
    (hr : Conf.exec (Fine.Indirect14.step tr (Fine.plain T)) next sched (Conf.start s) = .running c) (i : Th) :
    ∃ τ, Spec.Alone (Spec.step tr T.cxx14) (next i) (abs s) (c.th i).log τ ∧
      ((c.th i).cur = none → ∀ z, Spec.Uses owner i z → abs (c.view i) z = τ z) :=
  Conc.as_alone (api := Conc.indirect14 tr T S) (((Indirect14.reach_iff tr T s).1 h).inv S) hF hr i

/-- Objects that are shared keep their values and allocators all the time. -/
theorem C66_indirect14_shared_objects_stay (S : tr.Sound) (h : Indirect14.Reach tr T s)
    (hF : ∀ i, Spec.Fair (Spec.step tr T.cxx14) (Spec.Legal tr) Spec.operands Spec.changes owner next (abs s) i)
    (hr : Conf.exec (Fine.Indirect14.step tr (Fine.plain T)) next sched (Conf.start s) = .running c) (i : Th) {z : L}
    (hz : owner z = none) : abs (c.view i) z = abs s z :=
  Conc.shared_same (api := Conc.indirect14 tr T S) (((Indirect14.reach_iff tr T s).1 h).inv S) hF hr i hz

/-- The program is ended by `std::terminate` only if one of the threads can end that way alone. -/
theorem C66_indirect14_terminates_only_as_alone (S : tr.Sound) (h : Indirect14.Reach tr T s)
    (hF : ∀ i, Spec.Fair (Spec.step tr T.cxx14) (Spec.Legal tr) Spec.operands Spec.changes owner next (abs s) i)
    (hr : Conf.exec (Fine.Indirect14.step tr (Fine.plain T)) next sched (Conf.start s) = .terminated) :
    ∃ i log τ o mem n, Spec.Alone (Spec.step tr T.cxx14) (next i) (abs s) log τ ∧ next i log = some o ∧
      Spec.step tr T.cxx14 mem n τ o = .terminated :=
  Conc.terminated_alone (api := Conc.indirect14 tr T S) (((Indirect14.reach_iff tr T s).1 h).inv S) hF hr

/-- When all threads are between two calls, every block of storage is owned by exactly one object; so nothing has leaked. -/
theorem C66_indirect14_nothing_leaks (S : tr.Sound) (h : Indirect14.Reach tr T s)
    (hF : ∀ i, Spec.Fair (Spec.step tr T.cxx14) (Spec.Legal tr) Spec.operands Spec.changes owner next (abs s) i)
    (hr : Conf.exec (Fine.Indirect14.step tr (Fine.plain T)) next sched (Conf.start s) = .running c)
    (hidle : ∀ i, (c.th i).cur = none) :
    (∀ p k, c.heap p = some k → ∃ z h, c.hs z = some h ∧ h.p = some p) ∧
    (∀ z h p, c.hs z = some h → h.p = some p → c.heap p ≠ none) ∧
    ∀ z z' h h' p, c.hs z = some h → c.hs z' = some h' → h.p = some p → h'.p = some p → z = z' :=
  Conc.owned_once (api := Conc.indirect14 tr T S) (((Indirect14.reach_iff tr T s).1 h).inv S) hF hr hidle

/-- Calls are wait-free: a thread that has a call to make has completed one when it has made 42 steps, whatever the other
threads do (even if they do not respect what is shared), unless the program ended. -/
theorem C66_indirect14_wait_free {c' : Conf Th L A R (Obj V) (Out L A V)}
    (hr : Conf.exec (Fine.Indirect14.step tr (Fine.plain T)) next sched c = .running c') (i : Th) (hi : (c.th i).cur = none)
    (hn : next i (c.th i).log ≠ none) (ht : 42 ≤ Spec.turns i sched) : (c.th i).log.length < (c'.th i).log.length :=
  Conf.exec_progress (by rw [Conc.prog14]; exact Fine.Indirect.am_step tr (Fine.am_plain T.cxx14)) hr hi hn ht

/-- Without interruption the steps of a call do what the call does in the rest of the model. -/
theorem C66_indirect14_uninterrupted (o : Op L A V X) (e : Env) :
    Prog.interp (Fine.Indirect14.step tr (Fine.plain T) o) (s.enter e) = Indirect14.call tr (plain T) o e s := by
  rw [Conc.prog14, Fine.Indirect.interp_step tr (Fine.plain_same T.cxx14), Indirect14.call_eq]; rfl

end

section
variable {L A R Ty V X Th : Type} [DecidableEq L] [DecidableEq R] [DecidableEq Ty] [DecidableEq Th]
open Polymorphic
variable {tr : ATraits A R} {P : PSpec Ty V X} {s : St L A R (PBody Ty V)} {owner : L → Option Th}
  {next : Th → List (Seen (Out L A (Ty × V))) → Option (POp L A Ty V X)} {sched : List (Th × Env)}
  {c : Conf Th L A R (PBody Ty V) (Out L A (Ty × V))}

/-- The same for `polymorphic`. -/
theorem C66_polymorphic14_no_undefined_behaviour (S : tr.Sound) (E : tr.Equality)
    (hq : tr.pocca = true → tr.alwaysEqual = true) (h : Polymorphic14.Reach tr P s)
    (hF : ∀ i, Spec.Fair (Spec.pstep14 tr P) (Spec.PLegal tr) Spec.poperands Spec.pchanges owner next (abs s) i) (u : UB) :
    Conf.exec (Fine.Polymorphic14.step tr (Fine.plainP P)) next sched (Conf.start s) ≠ .ub u :=
  Conc.no_ub (api := Conc.polymorphic14 tr P S E hq) (Conc.ok14 S E hq h) hF sched u

/-- The same for `polymorphic`. -/
theorem C66_polymorphic14_no_data_race (S : tr.Sound) (E : tr.Equality)
    (hq : tr.pocca = true → tr.alwaysEqual = true) (h : Polymorphic14.Reach tr P s)
    (hF : ∀ i, Spec.Fair (Spec.pstep14 tr P) (Spec.PLegal tr) Spec.poperands Spec.pchanges owner next (abs s) i)
    (hr : Conf.exec (Fine.Polymorphic14.step tr (Fine.plainP P)) next sched (Conf.start s) = .running c) : ¬ Spec.Race c :=
  Conc.no_race (api := Conc.polymorphic14 tr P S E hq) (Conc.ok14 S E hq h) hF hr

/-- The same for `polymorphic`. -/
theorem C66_polymorphic14_threads_run_as_if_alone (S : tr.Sound) (E : tr.Equality)
    (hq : tr.pocca = true → tr.alwaysEqual = true) (h : Polymorphic14.Reach tr P s)
    (hF : ∀ i, Spec.Fair (Spec.pstep14 tr P) (Spec.PLegal tr) Spec.poperands Spec.pchanges owner next (abs s) i)
    (hr : Conf.exec (Fine.Polymorphic14.step tr (Fine.plainP P)) next sched (Conf.start s) = .running c) (i : Th) :
    ∃ τ, Spec.Alone (Spec.pstep14 tr P) (next i) (abs s) (c.th i).log τ ∧
      ((c.th i).cur = none → ∀ z, Spec.Uses owner i z → abs (c.view i) z = τ z) :=
  Conc.as_alone (api := Conc.polymorphic14 tr P S E hq) (Conc.ok14 S E hq h) hF hr i

/-- The same for `polymorphic`. -/
theorem C66_polymorphic14_shared_objects_stay (S : tr.Sound) (E : tr.Equality)
    (hq : tr.pocca = true → tr.alwaysEqual = true) (h : Polymorphic14.Reach tr P s)
    (hF : ∀ i, Spec.Fair (Spec.pstep14 tr P) (Spec.PLegal tr) Spec.poperands Spec.pchanges owner next (abs s) i)
    (hr : Conf.exec (Fine.Polymorphic14.step tr (Fine.plainP P)) next sched (Conf.start s) = .running c) (i : Th) {z : L}
    (hz : owner z = none) : abs (c.view i) z = abs s z :=
  Conc.shared_same (api := Conc.polymorphic14 tr P S E hq) (Conc.ok14 S E hq h) hF hr i hz

/-- The same for `polymorphic`. -/
theorem C66_polymorphic14_terminates_only_as_alone (S : tr.Sound) (E : tr.Equality)
    (hq : tr.pocca = true → tr.alwaysEqual = true) (h : Polymorphic14.Reach tr P s)
    (hF : ∀ i, Spec.Fair (Spec.pstep14 tr P) (Spec.PLegal tr) Spec.poperands Spec.pchanges owner next (abs s) i)
    (hr : Conf.exec (Fine.Polymorphic14.step tr (Fine.plainP P)) next sched (Conf.start s) = .terminated) :
    ∃ i log τ o mem n, Spec.Alone (Spec.pstep14 tr P) (next i) (abs s) log τ ∧ next i log = some o ∧
      Spec.pstep14 tr P mem n τ o = .terminated :=
  Conc.terminated_alone (api := Conc.polymorphic14 tr P S E hq) (Conc.ok14 S E hq h) hF hr

/-- The same for `polymorphic`. -/
theorem C66_polymorphic14_nothing_leaks (S : tr.Sound) (E : tr.Equality)
    (hq : tr.pocca = true → tr.alwaysEqual = true) (h : Polymorphic14.Reach tr P s)
    (hF : ∀ i, Spec.Fair (Spec.pstep14 tr P) (Spec.PLegal tr) Spec.poperands Spec.pchanges owner next (abs s) i)
    (hr : Conf.exec (Fine.Polymorphic14.step tr (Fine.plainP P)) next sched (Conf.start s) = .running c)
    (hidle : ∀ i, (c.th i).cur = none) :
    (∀ p k, c.heap p = some k → ∃ z h, c.hs z = some h ∧ h.p = some p) ∧
    (∀ z h p, c.hs z = some h → h.p = some p → c.heap p ≠ none) ∧
    ∀ z z' h h' p, c.hs z = some h → c.hs z' = some h' → h.p = some p → h'.p = some p → z = z' :=
  Conc.owned_once (api := Conc.polymorphic14 tr P S E hq) (Conc.ok14 S E hq h) hF hr hidle

/-- The same for `polymorphic`. -/
theorem C66_polymorphic14_wait_free {c' : Conf Th L A R (PBody Ty V) (Out L A (Ty × V))}
    (hr : Conf.exec (Fine.Polymorphic14.step tr (Fine.plainP P)) next sched c = .running c') (i : Th)
    (hi : (c.th i).cur = none) (hn : next i (c.th i).log ≠ none) (ht : 42 ≤ Spec.turns i sched) :
    (c.th i).log.length < (c'.th i).log.length :=
  Conf.exec_progress (Fine.Polymorphic14.am_step tr (Fine.am_plainP P)) hr hi hn ht

/-- The same for `polymorphic`. -/
theorem C66_polymorphic14_uninterrupted (o : POp L A Ty V X) (e : Env) :
    Prog.interp (Fine.Polymorphic14.step tr (Fine.plainP P) o) (s.enter e) = Polymorphic14.call tr (plainP P) o e s := by
  rw [Fine.Polymorphic14.interp_step tr _ (Fine.plainP_same P)]; rfl

end

/-! ### An example: the threads of `Props/Concurrent.lean` with the C++14 headers -/

section
open Demo

example : Indirect14.Reach (alloc false false false) Demo.T (st false false false) ∧
    (∀ b, Spec.Fair (Spec.step (alloc false false false) Demo.T.cxx14) (Spec.Legal (alloc false false false))
      Spec.operands Spec.changes bothOwner bothNext (Indirect.abs (st false false false)) b) ∧
    seen (Conf.exec (Fine.Indirect14.step (alloc false false false) (Fine.plain Demo.T)) bothNext (inTurns 30)
      (Conf.start (st false false false))) =
    [[.ret .unit, .ret (.value 7), .ret .unit], [.ret .unit, .ret (.value 7), .ret .unit]] :=
  ⟨(Indirect14.reach_iff _ Demo.T _).2 (st_reach false false false), both_fair, by decide +kernel⟩

/-- Object 1 is made with polymorphic_cxx14.h. -/
def made14 : St Nat Nat Nat (PBody Nat Nat) :=
  match Polymorphic14.run (alloc false false false) PDemo.P [(.make 1 (some 5) (.from 1 (.arg 7)), fine 100)] St.init with
  | .done _ s => s
  | _ => St.init

theorem made14_reach : Polymorphic14.Reach (alloc false false false) PDemo.P made14 := by
  unfold made14
  cases h : Polymorphic14.run (alloc false false false) PDemo.P [(.make 1 (some 5) (.from 1 (.arg 7)), fine 100)]
      (St.init : St Nat Nat Nat (PBody Nat Nat)) with
  | done log s => exact Polymorphic14.Reach.run .init (by unfold Polymorphic14.LegalRun; decide) h
  | _ => exact .init

/-- A client that does not construct from initializer lists sees no difference. -/
theorem alone14 {b : Bool} {σ : Spec.Boxes Nat Nat (Nat × Nat)} {log : List (Seen (Out Nat Nat (Nat × Nat)))}
    {τ : Spec.Boxes Nat Nat (Nat × Nat)}
    (h : Spec.Alone (Spec.pstep14 (alloc false false false) PDemo.P) (pbothNext b) σ log τ) :
    Spec.Alone (Spec.pstep (alloc false false false) PDemo.P) (pbothNext b) σ log τ := by
  have e : ∀ log o (mem : Bool) n (τ : Spec.Boxes Nat Nat (Nat × Nat)), pbothNext b log = some o →
      Spec.pstep14 (alloc false false false) PDemo.P mem n τ o = Spec.pstep (alloc false false false) PDemo.P mem n τ o := by
    intro log o mem n τ hn
    unfold pbothNext at hn
    split at hn <;> cases hn <;> rfl
  induction h with
  | start => exact .start
  | ret o mem n h hn hc ih => exact .ret o mem n ih hn (by rw [← e _ _ _ _ _ hn]; exact hc)
  | threw o mem n h hn hc ih => exact .threw o mem n ih hn (by rw [← e _ _ _ _ _ hn]; exact hc)

theorem pboth14_fair (b : Bool) : Spec.Fair (Spec.pstep14 (alloc false false false) PDemo.P)
    (Spec.PLegal (alloc false false false)) Spec.poperands Spec.pchanges bothOwner pbothNext (Polymorphic.abs made14) b := by
  intro log τ o h hn
  have h1 : Polymorphic.abs made14 1 = some ⟨5, some (1, 1007)⟩ := by decide
  have h2 : Polymorphic.abs made14 (mine b) = none := by cases b <;> decide
  exact pboth_fair_of h1 h2 (alone14 h) hn

example : (alloc false false false).Sound ∧ (alloc false false false).Equality ∧
    ((alloc false false false).pocca = true → (alloc false false false).alwaysEqual = true) ∧
    Polymorphic14.Reach (alloc false false false) PDemo.P made14 ∧
    (∀ b, Spec.Fair (Spec.pstep14 (alloc false false false) PDemo.P)
      (Spec.PLegal (alloc false false false)) Spec.poperands Spec.pchanges bothOwner pbothNext (Polymorphic.abs made14) b) ∧
    pseen (Conf.exec (Fine.Polymorphic14.step (alloc false false false) (Fine.plainP PDemo.P)) pbothNext (inTurns 40)
      (Conf.start made14)) =
    [[.ret .unit, .ret (.value (1, 1007)), .ret .unit], [.ret .unit, .ret (.value (1, 1007)), .ret .unit]] :=
  ⟨alloc_sound _ _ _, alloc_equality _ _ _, by decide, made14_reach, pboth14_fair, by decide +kernel⟩

end
end Verif.Props
