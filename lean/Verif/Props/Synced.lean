import Verif.Proofs.SyncedApi
import Verif.Props.Query

/-!
# C69: threads that synchronise

The rule that the standard library has for its own types: threads may use whatever objects they like, as long as no two calls
that run at the same time conflict, i.e. one of them changes an object that the other names (and as long as the preconditions of
every call hold when it begins).  Objects may be handed from thread to thread, and be changed by one thread after they were shared
by many.  The calls then do what they do one after the other, in the order in which they end.

`evs` is any list of events: threads begin calls, and make their accesses to memory one by one.
-/

set_option autoImplicit false
set_option linter.unusedSectionVars false
set_option linter.unusedSimpArgs false

namespace Verif.Props
open Verif

section
variable {Th L A R B Op Out : Type} [DecidableEq Th] [DecidableEq L] [DecidableEq R] [Body B]

/-- Every thread has seen the results of its calls that have ended, in the order in which they ended (for any calls). -/
theorem C69_own_results {prog : Op → Prog L A R B Out} {s : St L A R B} {evs : List (Event Th Op)} {c : Sys Th L A R B Op Out}
    (hr : Sys.exec prog evs (Sys.start s) = .running c) (i : Th) : (c.conf.th i).log = Spec.sawOf i c.done :=
  (Conc.exec_logged (Conc.start_logged s) hr).1 i

/-- A thread that is not in a call makes no accesses. -/
theorem C69_idle_threads {prog : Op → Prog L A R B Out} {s : St L A R B} {evs : List (Event Th Op)} {c : Sys Th L A R B Op Out}
    (hr : Sys.exec prog evs (Sys.start s) = .running c) (i : Th) (hi : c.run i = none) : (c.conf.th i).cur = none :=
  (Conc.exec_logged (Conc.start_logged s) hr).2 i hi

end

/-! ### indirect.h -/

section
variable {L A R V X Th : Type} [DecidableEq L] [DecidableEq R] [DecidableEq Th]
open Indirect
variable {tr : ATraits A R} {T : TSpec V X} {C : TCmp V} {s : St L A R (Obj V)}
  {evs : List (Event Th (Either (Op L A V X) (Query L V)))}
  {c : Sys Th L A R (Obj V) (Either (Op L A V X) (Query L V)) (Out L A V)}

/-- indirect.h: threads that synchronise have no undefined behaviour. -/
theorem C69_no_undefined_behaviour (S : tr.Sound) (h : Indirect.Reach tr T s)
    (hS : Spec.Synchronised (Fine.either (Fine.Indirect.step tr (Fine.plain T)) (Fine.Indirect.query C)) (Spec.ELegal tr) Spec.eoperands
      (Spec.echanges Spec.changes) abs s evs) (u : UB) :
    Sys.exec (Fine.either (Fine.Indirect.step tr (Fine.plain T)) (Fine.Indirect.query C)) evs (Sys.start s) ≠ .ub u :=
  Conc.s_no_ub (api := Conc.lqueried tr T C S) (h.inv S) hS u

/-- indirect.h: there is never a data race. -/
theorem C69_no_data_race (S : tr.Sound) (h : Indirect.Reach tr T s)
    (hS : Spec.Synchronised (Fine.either (Fine.Indirect.step tr (Fine.plain T)) (Fine.Indirect.query C)) (Spec.ELegal tr) Spec.eoperands
      (Spec.echanges Spec.changes) abs s evs)
    (hr : Sys.exec (Fine.either (Fine.Indirect.step tr (Fine.plain T)) (Fine.Indirect.query C)) evs (Sys.start s) = .running c) : ¬ Spec.Race c.conf :=
  Conc.s_no_race (api := Conc.lqueried tr T C S) (h.inv S) hS hr

/-- indirect.h: the calls that have ended can be made one after the other, without concurrency, in the order in which they ended,
with the same results; and the objects that no call is changing at the moment have the values that they have then. -/
theorem C69_as_if_one_after_the_other (S : tr.Sound) (h : Indirect.Reach tr T s)
    (hS : Spec.Synchronised (Fine.either (Fine.Indirect.step tr (Fine.plain T)) (Fine.Indirect.query C)) (Spec.ELegal tr) Spec.eoperands
      (Spec.echanges Spec.changes) abs s evs)
    (hr : Sys.exec (Fine.either (Fine.Indirect.step tr (Fine.plain T)) (Fine.Indirect.query C)) evs (Sys.start s) = .running c) :
    ∃ σ, Spec.Serial (Spec.estep tr T C) (abs s) c.done σ ∧
      ∀ i z, (∀ j o, c.run j = some o → z ∉ Spec.echanges Spec.changes o) → abs (c.conf.view i) z = σ z :=
  Conc.s_serial (api := Conc.lqueried tr T C S) (h.inv S) hS hr

/-- indirect.h: the program is ended by `std::terminate` only if that can happen to legal calls made one after the other. -/
theorem C69_terminates_only_as_serially (S : tr.Sound) (h : Indirect.Reach tr T s)
    (hS : Spec.Synchronised (Fine.either (Fine.Indirect.step tr (Fine.plain T)) (Fine.Indirect.query C)) (Spec.ELegal tr) Spec.eoperands
      (Spec.echanges Spec.changes) abs s evs)
    (hr : Sys.exec (Fine.either (Fine.Indirect.step tr (Fine.plain T)) (Fine.Indirect.query C)) evs (Sys.start s) = .terminated) :
    ∃ (done : List (Ended Th (Either (Op L A V X) (Query L V)) (Out L A V))) (σ : _) (o : _) (mem : _) (n : _),
      Spec.Serial (Spec.estep tr T C) (abs s) done σ ∧ Spec.ELegal tr σ o ∧ Spec.estep tr T C mem n σ o = .terminated :=
  Conc.s_terminated (api := Conc.lqueried tr T C S) (h.inv S) hS hr

/-- indirect.h: when no thread is in a call, every block of storage is owned by exactly one object; so nothing has leaked. -/
theorem C69_nothing_leaks (S : tr.Sound) (h : Indirect.Reach tr T s)
    (hS : Spec.Synchronised (Fine.either (Fine.Indirect.step tr (Fine.plain T)) (Fine.Indirect.query C)) (Spec.ELegal tr) Spec.eoperands
      (Spec.echanges Spec.changes) abs s evs)
    (hr : Sys.exec (Fine.either (Fine.Indirect.step tr (Fine.plain T)) (Fine.Indirect.query C)) evs (Sys.start s) = .running c) (hidle : ∀ i, c.run i = none) [Inhabited Th] :
    (∀ p k, c.conf.heap p = some k → ∃ z h, c.conf.hs z = some h ∧ h.p = some p) ∧
    (∀ z h p, c.conf.hs z = some h → h.p = some p → c.conf.heap p ≠ none) ∧
    ∀ z z' h h' p, c.conf.hs z = some h → c.conf.hs z' = some h' → h.p = some p → h'.p = some p → z = z' :=
  Conc.s_owned_once (api := Conc.lqueried tr T C S) (h.inv S) hS hr hidle default

/-- indirect.h: for the preconditions it suffices to consider the calls that have ended, made one after the other. -/
theorem C69_serial_reasoning (S : tr.Sound) (h : Indirect.Reach tr T s)
    (hS : Spec.SynchronisedSerially (Fine.either (Fine.Indirect.step tr (Fine.plain T)) (Fine.Indirect.query C)) (Spec.estep tr T C) (Spec.ELegal tr) Spec.eoperands
      (Spec.echanges Spec.changes) abs s evs) :
    Spec.Synchronised (Fine.either (Fine.Indirect.step tr (Fine.plain T)) (Fine.Indirect.query C)) (Spec.ELegal tr) Spec.eoperands
      (Spec.echanges Spec.changes) abs s evs :=
  Conc.s_serially (api := Conc.lqueried tr T C S) (h.inv S) hS

end

/-! ### polymorphic.h -/

section
variable {L A R Ty V X Th : Type} [DecidableEq L] [DecidableEq R] [DecidableEq Ty] [DecidableEq Th]
open Polymorphic
variable {tr : ATraits A R} {P : PSpec Ty V X} {s : St L A R (PBody Ty V)} {evs : List (Event Th (POp L A Ty V X))}
  {c : Sys Th L A R (PBody Ty V) (POp L A Ty V X) (Out L A (Ty × V))}

/-- polymorphic.h: threads that synchronise have no undefined behaviour. -/
theorem C69_polymorphic_no_undefined_behaviour (S : tr.Sound) (h : Polymorphic.Reach tr P s)
    (hS : Spec.Synchronised (Fine.Polymorphic.step tr (Fine.plainP P)) (Spec.PLegal tr) Spec.poperands
      Spec.pchanges abs s evs) (u : UB) :
    Sys.exec (Fine.Polymorphic.step tr (Fine.plainP P)) evs (Sys.start s) ≠ .ub u :=
  Conc.s_no_ub (api := Conc.lpolymorphic tr P S) ⟨(h.sim S).1, (h.sim S).2.inv S⟩ hS u

/-- polymorphic.h: there is never a data race. -/
theorem C69_polymorphic_no_data_race (S : tr.Sound) (h : Polymorphic.Reach tr P s)
    (hS : Spec.Synchronised (Fine.Polymorphic.step tr (Fine.plainP P)) (Spec.PLegal tr) Spec.poperands
      Spec.pchanges abs s evs)
    (hr : Sys.exec (Fine.Polymorphic.step tr (Fine.plainP P)) evs (Sys.start s) = .running c) : ¬ Spec.Race c.conf :=
  Conc.s_no_race (api := Conc.lpolymorphic tr P S) ⟨(h.sim S).1, (h.sim S).2.inv S⟩ hS hr

/-- polymorphic.h: the calls that have ended can be made one after the other, without concurrency, in the order in which they ended,
with the same results; and the objects that no call is changing at the moment have the values that they have then. -/
theorem C69_polymorphic_as_if_one_after_the_other (S : tr.Sound) (h : Polymorphic.Reach tr P s)
    (hS : Spec.Synchronised (Fine.Polymorphic.step tr (Fine.plainP P)) (Spec.PLegal tr) Spec.poperands
      Spec.pchanges abs s evs)
    (hr : Sys.exec (Fine.Polymorphic.step tr (Fine.plainP P)) evs (Sys.start s) = .running c) :
    ∃ σ, Spec.Serial (Spec.pstep tr P) (abs s) c.done σ ∧
      ∀ i z, (∀ j o, c.run j = some o → z ∉ Spec.pchanges o) → abs (c.conf.view i) z = σ z :=
  Conc.s_serial (api := Conc.lpolymorphic tr P S) ⟨(h.sim S).1, (h.sim S).2.inv S⟩ hS hr

/-- polymorphic.h: the program is ended by `std::terminate` only if that can happen to legal calls made one after the other. -/
theorem C69_polymorphic_terminates_only_as_serially (S : tr.Sound) (h : Polymorphic.Reach tr P s)
    (hS : Spec.Synchronised (Fine.Polymorphic.step tr (Fine.plainP P)) (Spec.PLegal tr) Spec.poperands
      Spec.pchanges abs s evs)
    (hr : Sys.exec (Fine.Polymorphic.step tr (Fine.plainP P)) evs (Sys.start s) = .terminated) :
    ∃ (done : List (Ended Th (POp L A Ty V X) (Out L A (Ty × V)))) (σ : _) (o : _) (mem : _) (n : _),
      Spec.Serial (Spec.pstep tr P) (abs s) done σ ∧ Spec.PLegal tr σ o ∧ Spec.pstep tr P mem n σ o = .terminated :=
  Conc.s_terminated (api := Conc.lpolymorphic tr P S) ⟨(h.sim S).1, (h.sim S).2.inv S⟩ hS hr

/-- polymorphic.h: when no thread is in a call, every block of storage is owned by exactly one object; so nothing has leaked. -/
theorem C69_polymorphic_nothing_leaks (S : tr.Sound) (h : Polymorphic.Reach tr P s)
    (hS : Spec.Synchronised (Fine.Polymorphic.step tr (Fine.plainP P)) (Spec.PLegal tr) Spec.poperands
      Spec.pchanges abs s evs)
    (hr : Sys.exec (Fine.Polymorphic.step tr (Fine.plainP P)) evs (Sys.start s) = .running c) (hidle : ∀ i, c.run i = none) [Inhabited Th] :
    (∀ p k, c.conf.heap p = some k → ∃ z h, c.conf.hs z = some h ∧ h.p = some p) ∧
    (∀ z h p, c.conf.hs z = some h → h.p = some p → c.conf.heap p ≠ none) ∧
    ∀ z z' h h' p, c.conf.hs z = some h → c.conf.hs z' = some h' → h.p = some p → h'.p = some p → z = z' :=
  Conc.s_owned_once (api := Conc.lpolymorphic tr P S) ⟨(h.sim S).1, (h.sim S).2.inv S⟩ hS hr hidle default

/-- polymorphic.h: for the preconditions it suffices to consider the calls that have ended, made one after the other. -/
theorem C69_polymorphic_serial_reasoning (S : tr.Sound) (h : Polymorphic.Reach tr P s)
    (hS : Spec.SynchronisedSerially (Fine.Polymorphic.step tr (Fine.plainP P)) (Spec.pstep tr P) (Spec.PLegal tr) Spec.poperands
      Spec.pchanges abs s evs) :
    Spec.Synchronised (Fine.Polymorphic.step tr (Fine.plainP P)) (Spec.PLegal tr) Spec.poperands
      Spec.pchanges abs s evs :=
  Conc.s_serially (api := Conc.lpolymorphic tr P S) ⟨(h.sim S).1, (h.sim S).2.inv S⟩ hS

end

/-! ### indirect_cxx14.h -/

section
variable {L A R V X Th : Type} [DecidableEq L] [DecidableEq R] [DecidableEq Th]
open Indirect
variable {tr : ATraits A R} {T : TSpec V X} {C : TCmp V} {s : St L A R (Obj V)}
  {evs : List (Event Th (Either (Op L A V X) (Query14 L V)))}
  {c : Sys Th L A R (Obj V) (Either (Op L A V X) (Query14 L V)) (Out L A V)}

/-- indirect_cxx14.h: threads that synchronise have no undefined behaviour. -/
theorem C69_indirect14_no_undefined_behaviour (S : tr.Sound) (h : Indirect14.Reach tr T s)
    (hS : Spec.Synchronised (Fine.either (Fine.Indirect14.step tr (Fine.plain T)) (Fine.Indirect14.query C)) (Spec.ELegal14 tr) Spec.eoperands14
      (Spec.echanges Spec.changes) abs s evs) (u : UB) :
    Sys.exec (Fine.either (Fine.Indirect14.step tr (Fine.plain T)) (Fine.Indirect14.query C)) evs (Sys.start s) ≠ .ub u :=
  Conc.s_no_ub (api := Conc.lqueried14 tr T C S) (((Indirect14.reach_iff tr T s).1 h).inv S) hS u

/-- indirect_cxx14.h: there is never a data race. -/
theorem C69_indirect14_no_data_race (S : tr.Sound) (h : Indirect14.Reach tr T s)
    (hS : Spec.Synchronised (Fine.either (Fine.Indirect14.step tr (Fine.plain T)) (Fine.Indirect14.query C)) (Spec.ELegal14 tr) Spec.eoperands14
      (Spec.echanges Spec.changes) abs s evs)
    (hr : Sys.exec (Fine.either (Fine.Indirect14.step tr (Fine.plain T)) (Fine.Indirect14.query C)) evs (Sys.start s) = .running c) : ¬ Spec.Race c.conf :=
  Conc.s_no_race (api := Conc.lqueried14 tr T C S) (((Indirect14.reach_iff tr T s).1 h).inv S) hS hr

/-- indirect_cxx14.h: the calls that have ended can be made one after the other, without concurrency, in the order in which they ended,
with the same results; and the objects that no call is changing at the moment have the values that they have then. -/
theorem C69_indirect14_as_if_one_after_the_other (S : tr.Sound) (h : Indirect14.Reach tr T s)
    (hS : Spec.Synchronised (Fine.either (Fine.Indirect14.step tr (Fine.plain T)) (Fine.Indirect14.query C)) (Spec.ELegal14 tr) Spec.eoperands14
      (Spec.echanges Spec.changes) abs s evs)
    (hr : Sys.exec (Fine.either (Fine.Indirect14.step tr (Fine.plain T)) (Fine.Indirect14.query C)) evs (Sys.start s) = .running c) :
    ∃ σ, Spec.Serial (Spec.estep14 tr T C) (abs s) c.done σ ∧
      ∀ i z, (∀ j o, c.run j = some o → z ∉ Spec.echanges Spec.changes o) → abs (c.conf.view i) z = σ z :=
  Conc.s_serial (api := Conc.lqueried14 tr T C S) (((Indirect14.reach_iff tr T s).1 h).inv S) hS hr

/-- indirect_cxx14.h: the program is ended by `std::terminate` only if that can happen to legal calls made one after the other. -/
theorem C69_indirect14_terminates_only_as_serially (S : tr.Sound) (h : Indirect14.Reach tr T s)
    (hS : Spec.Synchronised (Fine.either (Fine.Indirect14.step tr (Fine.plain T)) (Fine.Indirect14.query C)) (Spec.ELegal14 tr) Spec.eoperands14
      (Spec.echanges Spec.changes) abs s evs)
    (hr : Sys.exec (Fine.either (Fine.Indirect14.step tr (Fine.plain T)) (Fine.Indirect14.query C)) evs (Sys.start s) = .terminated) :
    ∃ (done : List (Ended Th (Either (Op L A V X) (Query14 L V)) (Out L A V))) (σ : _) (o : _) (mem : _) (n : _),
      Spec.Serial (Spec.estep14 tr T C) (abs s) done σ ∧ Spec.ELegal14 tr σ o ∧ Spec.estep14 tr T C mem n σ o = .terminated :=
  Conc.s_terminated (api := Conc.lqueried14 tr T C S) (((Indirect14.reach_iff tr T s).1 h).inv S) hS hr

/-- indirect_cxx14.h: when no thread is in a call, every block of storage is owned by exactly one object; so nothing has leaked. -/
theorem C69_indirect14_nothing_leaks (S : tr.Sound) (h : Indirect14.Reach tr T s)
    (hS : Spec.Synchronised (Fine.either (Fine.Indirect14.step tr (Fine.plain T)) (Fine.Indirect14.query C)) (Spec.ELegal14 tr) Spec.eoperands14
      (Spec.echanges Spec.changes) abs s evs)
    (hr : Sys.exec (Fine.either (Fine.Indirect14.step tr (Fine.plain T)) (Fine.Indirect14.query C)) evs (Sys.start s) = .running c) (hidle : ∀ i, c.run i = none) [Inhabited Th] :
    (∀ p k, c.conf.heap p = some k → ∃ z h, c.conf.hs z = some h ∧ h.p = some p) ∧
    (∀ z h p, c.conf.hs z = some h → h.p = some p → c.conf.heap p ≠ none) ∧
    ∀ z z' h h' p, c.conf.hs z = some h → c.conf.hs z' = some h' → h.p = some p → h'.p = some p → z = z' :=
  Conc.s_owned_once (api := Conc.lqueried14 tr T C S) (((Indirect14.reach_iff tr T s).1 h).inv S) hS hr hidle default

/-- indirect_cxx14.h: for the preconditions it suffices to consider the calls that have ended, made one after the other. -/
theorem C69_indirect14_serial_reasoning (S : tr.Sound) (h : Indirect14.Reach tr T s)
    (hS : Spec.SynchronisedSerially (Fine.either (Fine.Indirect14.step tr (Fine.plain T)) (Fine.Indirect14.query C)) (Spec.estep14 tr T C) (Spec.ELegal14 tr) Spec.eoperands14
      (Spec.echanges Spec.changes) abs s evs) :
    Spec.Synchronised (Fine.either (Fine.Indirect14.step tr (Fine.plain T)) (Fine.Indirect14.query C)) (Spec.ELegal14 tr) Spec.eoperands14
      (Spec.echanges Spec.changes) abs s evs :=
  Conc.s_serially (api := Conc.lqueried14 tr T C S) (((Indirect14.reach_iff tr T s).1 h).inv S) hS

end

/-! ### polymorphic_cxx14.h -/

section
variable {L A R Ty V X Th : Type} [DecidableEq L] [DecidableEq R] [DecidableEq Ty] [DecidableEq Th]
open Polymorphic
variable {tr : ATraits A R} {P : PSpec Ty V X} {s : St L A R (PBody Ty V)} {evs : List (Event Th (POp L A Ty V X))}
  {c : Sys Th L A R (PBody Ty V) (POp L A Ty V X) (Out L A (Ty × V))}

/-- polymorphic_cxx14.h: threads that synchronise have no undefined behaviour. -/
theorem C69_polymorphic14_no_undefined_behaviour (S : tr.Sound) (E : tr.Equality) (hq : tr.pocca = true → tr.alwaysEqual = true)
    (h : Polymorphic14.Reach tr P s)
    (hS : Spec.Synchronised (Fine.Polymorphic14.step tr (Fine.plainP P)) (Spec.PLegal tr) Spec.poperands
      Spec.pchanges abs s evs) (u : UB) :
    Sys.exec (Fine.Polymorphic14.step tr (Fine.plainP P)) evs (Sys.start s) ≠ .ub u :=
  Conc.s_no_ub (api := Conc.lpolymorphic14 tr P S E hq) (Conc.ok14 S E hq h) hS u

/-- polymorphic_cxx14.h: there is never a data race. -/
theorem C69_polymorphic14_no_data_race (S : tr.Sound) (E : tr.Equality) (hq : tr.pocca = true → tr.alwaysEqual = true)
    (h : Polymorphic14.Reach tr P s)
    (hS : Spec.Synchronised (Fine.Polymorphic14.step tr (Fine.plainP P)) (Spec.PLegal tr) Spec.poperands
      Spec.pchanges abs s evs)
    (hr : Sys.exec (Fine.Polymorphic14.step tr (Fine.plainP P)) evs (Sys.start s) = .running c) : ¬ Spec.Race c.conf :=
  Conc.s_no_race (api := Conc.lpolymorphic14 tr P S E hq) (Conc.ok14 S E hq h) hS hr

/-- polymorphic_cxx14.h: the calls that have ended can be made one after the other, without concurrency, in the order in which they ended,
with the same results; and the objects that no call is changing at the moment have the values that they have then. -/
theorem C69_polymorphic14_as_if_one_after_the_other (S : tr.Sound) (E : tr.Equality) (hq : tr.pocca = true → tr.alwaysEqual = true)
    (h : Polymorphic14.Reach tr P s)
    (hS : Spec.Synchronised (Fine.Polymorphic14.step tr (Fine.plainP P)) (Spec.PLegal tr) Spec.poperands
      Spec.pchanges abs s evs)
    (hr : Sys.exec (Fine.Polymorphic14.step tr (Fine.plainP P)) evs (Sys.start s) = .running c) :
    ∃ σ, Spec.Serial (Spec.pstep14 tr P) (abs s) c.done σ ∧
      ∀ i z, (∀ j o, c.run j = some o → z ∉ Spec.pchanges o) → abs (c.conf.view i) z = σ z :=
  Conc.s_serial (api := Conc.lpolymorphic14 tr P S E hq) (Conc.ok14 S E hq h) hS hr

/-- polymorphic_cxx14.h: the program is ended by `std::terminate` only if that can happen to legal calls made one after the other. -/
theorem C69_polymorphic14_terminates_only_as_serially (S : tr.Sound) (E : tr.Equality) (hq : tr.pocca = true → tr.alwaysEqual = true)
    (h : Polymorphic14.Reach tr P s)
    (hS : Spec.Synchronised (Fine.Polymorphic14.step tr (Fine.plainP P)) (Spec.PLegal tr) Spec.poperands
      Spec.pchanges abs s evs)
    (hr : Sys.exec (Fine.Polymorphic14.step tr (Fine.plainP P)) evs (Sys.start s) = .terminated) :
    ∃ (done : List (Ended Th (POp L A Ty V X) (Out L A (Ty × V)))) (σ : _) (o : _) (mem : _) (n : _),
      Spec.Serial (Spec.pstep14 tr P) (abs s) done σ ∧ Spec.PLegal tr σ o ∧ Spec.pstep14 tr P mem n σ o = .terminated :=
  Conc.s_terminated (api := Conc.lpolymorphic14 tr P S E hq) (Conc.ok14 S E hq h) hS hr

/-- polymorphic_cxx14.h: when no thread is in a call, every block of storage is owned by exactly one object; so nothing has leaked. -/
theorem C69_polymorphic14_nothing_leaks (S : tr.Sound) (E : tr.Equality) (hq : tr.pocca = true → tr.alwaysEqual = true)
    (h : Polymorphic14.Reach tr P s)
    (hS : Spec.Synchronised (Fine.Polymorphic14.step tr (Fine.plainP P)) (Spec.PLegal tr) Spec.poperands
      Spec.pchanges abs s evs)
    (hr : Sys.exec (Fine.Polymorphic14.step tr (Fine.plainP P)) evs (Sys.start s) = .running c) (hidle : ∀ i, c.run i = none) [Inhabited Th] :
    (∀ p k, c.conf.heap p = some k → ∃ z h, c.conf.hs z = some h ∧ h.p = some p) ∧
    (∀ z h p, c.conf.hs z = some h → h.p = some p → c.conf.heap p ≠ none) ∧
    ∀ z z' h h' p, c.conf.hs z = some h → c.conf.hs z' = some h' → h.p = some p → h'.p = some p → z = z' :=
  Conc.s_owned_once (api := Conc.lpolymorphic14 tr P S E hq) (Conc.ok14 S E hq h) hS hr hidle default

/-- polymorphic_cxx14.h: for the preconditions it suffices to consider the calls that have ended, made one after the other. -/
theorem C69_polymorphic14_serial_reasoning (S : tr.Sound) (E : tr.Equality) (hq : tr.pocca = true → tr.alwaysEqual = true)
    (h : Polymorphic14.Reach tr P s)
    (hS : Spec.SynchronisedSerially (Fine.Polymorphic14.step tr (Fine.plainP P)) (Spec.pstep14 tr P) (Spec.PLegal tr) Spec.poperands
      Spec.pchanges abs s evs) :
    Spec.Synchronised (Fine.Polymorphic14.step tr (Fine.plainP P)) (Spec.PLegal tr) Spec.poperands
      Spec.pchanges abs s evs :=
  Conc.s_serially (api := Conc.lpolymorphic14 tr P S E hq) (Conc.ok14 S E hq h) hS

end

/-! ### An example: objects that are handed from thread to thread -/

section
open Demo

/-- `Spec.Synchronised`, decided by running the program. -/
def checks {L A R B V Op : Type} [DecidableEq L] [DecidableEq R] [Body B] (prog : Op → Prog L A R B (Out L A V))
    (legal : Spec.Boxes L A V → Op → Bool) (operands changes : Op → List L) (abs : St L A R B → Spec.Boxes L A V) :
    List (Event Bool Op) → Sys Bool L A R B Op (Out L A V) → Bool
  | [], _ => true
  | ev :: evs, c =>
    (match ev with
      | .start i o _ => (c.run i).isSome || ([true, false].all fun j => match c.run j with
          | none => true
          | some o' => ((operands o).all fun z => !decide (z ∈ changes o')) && (changes o).all fun z => !decide (z ∈ operands o')) &&
        legal (abs (c.conf.view i)) o
      | .step _ => true) &&
    match Sys.tick prog ev c with
    | .running c' => checks prog legal operands changes abs evs c'
    | _ => true

theorem checks_sound {L A R B V Op : Type} [DecidableEq L] [DecidableEq R] [Body B] {prog : Op → Prog L A R B (Out L A V)}
    {legal : Spec.Boxes L A V → Op → Prop} [∀ σ o, Decidable (legal σ o)] {operands changes : Op → List L}
    {abs : St L A R B → Spec.Boxes L A V} {s : St L A R B} {evs : List (Event Bool Op)}
    (h : checks prog (fun σ o => decide (legal σ o)) operands changes abs evs (Sys.start s) = true) :
    Spec.Synchronised prog legal operands changes abs s evs := by
  intro before i o e after c he hx hi
  subst he
  generalize Sys.start s = c0 at h hx
  induction before generalizing c0 with
  | nil =>
    cases hx
    simp only [List.nil_append, checks, Bool.and_eq_true, Bool.or_eq_true, hi, Option.isSome_none, Bool.false_eq_true, false_or,
      decide_eq_true_eq] at h
    refine ⟨?_, h.1.2⟩
    rintro j o' hj ⟨z, hz⟩
    have := List.all_eq_true.1 h.1.1 j (by cases j <;> simp)
    rw [hj] at this
    simp only [Bool.and_eq_true, List.all_eq_true, Bool.not_eq_true', decide_eq_false_iff_not] at this
    rcases hz with ⟨h1, h2⟩ | ⟨h1, h2⟩
    · exact this.1 z h1 h2
    · exact this.2 z h1 h2
  | cons ev before ih =>
    simp only [List.cons_append, checks, Bool.and_eq_true] at h
    simp only [Sys.exec] at hx
    cases ht : Sys.tick prog ev c0 with
    | running c1 => rw [ht] at h hx; exact ih c1 h.2 hx
    | terminated => rw [ht] at hx; cases hx
    | ub b => rw [ht] at hx; cases hx

instance (tr : ATraits Nat Nat) (σ : Spec.Boxes Nat Nat Nat) (o : Either (Op Nat Nat Nat Nat) (Query Nat Nat)) :
    Decidable (Spec.ELegal tr σ o) := by
  cases o <;> unfold Spec.ELegal
  · infer_instance
  · unfold Spec.AllLive; infer_instance

/-- Both threads make steps, in turns. -/
def bothStep {Op : Type} (n : Nat) : List (Event Bool Op) := (List.replicate n [.step true, .step false]).flatten

/-- Thread `true` copies object 1 to object 10, while thread `false` compares object 1 with object 3.  Then thread `false` takes
over object 10 into object 11, while thread `true` copies object 1 again.  At last thread `true` destroys the object that thread
`false` has made, and thread `false` the one that thread `true` has made. -/
def handOver : List (Event Bool (Either (Op Nat Nat Nat Nat) (Query Nat Nat))) :=
  [.start true (.call (.copy 10 1)) (fine 200), .start false (.query (.cmp 1 3)) (fine 0)] ++ bothStep 20 ++
  [.start false (.call (.move 11 10)) (fine 0), .start true (.call (.copy 12 1)) (fine 201)] ++ bothStep 20 ++
  [.start true (.call (.destroy 11)) (fine 0), .start false (.call (.destroy 12)) (fine 0)] ++ bothStep 20

/-- The calls that have ended. -/
def endedOf {R B Op : Type} : Outcome (Sys Bool Nat Nat R B Op (Out Nat Nat Nat)) → List (Bool × Seen (Out Nat Nat Nat))
  | .running c => c.done.map fun d => (d.thread, d.saw)
  | _ => []

/-- These threads synchronise, and all their calls end. -/
example : Indirect.Reach (alloc false false false) Demo.T (st false false false) ∧
    Spec.Synchronised (Fine.either (Fine.Indirect.step (alloc false false false) (Fine.plain Demo.T))
      (Fine.Indirect.query throwingCmp)) (Spec.ELegal (alloc false false false)) Spec.eoperands (Spec.echanges Spec.changes)
      Indirect.abs (st false false false) handOver ∧
    endedOf (Sys.exec (Fine.either (Fine.Indirect.step (alloc false false false) (Fine.plain Demo.T))
      (Fine.Indirect.query throwingCmp)) handOver (Sys.start (st false false false))) =
    [(false, .ret (.ordering .less)), (true, .ret .unit), (false, .ret .unit), (true, .ret .unit), (true, .ret .unit),
      (false, .ret .unit)] :=
  ⟨st_reach _ _ _, checks_sound (by decide +kernel), by decide +kernel⟩

/-- What holds at the end. -/
def clashesS {L A R B Op O : Type} (p : Addr) : Outcome (Sys Bool L A R B Op O) → Bool
  | .running c => clashes p (.running c.conf)
  | _ => false

/-- Two calls that conflict and run at the same time can race, and use an object after its lifetime, although the preconditions of
both hold when they begin. -/
theorem C69_conflicts_matter :
    let prog : Either (Op Nat Nat Nat Nat) (Query Nat Nat) → _ :=
      Fine.either (Fine.Indirect.step (alloc false false false) (Fine.plain Demo.T)) (Fine.Indirect.query throwingCmp)
    (∃ (evs : List (Event Bool _)) (c : _), Sys.exec prog evs (Sys.start (st false false false)) = .running c ∧
      Spec.Race c.conf) ∧
    (∃ evs : List (Event Bool _), undefinedBy (Sys.exec prog evs (Sys.start (st false false false))) = some .deadObject) ∧
    Spec.Legal (alloc false false false) (Indirect.abs (st false false false)) (.deref 1 : Op Nat Nat Nat Nat) ∧
    Spec.Legal (alloc false false false) (Indirect.abs (st false false false)) (.destroy 1 : Op Nat Nat Nat Nat) := by
  refine ⟨?_, ?_, by decide, by decide⟩
  · have h : clashesS 100 (Sys.exec (Fine.either (Fine.Indirect.step (alloc false false false) (Fine.plain Demo.T))
        (Fine.Indirect.query throwingCmp)) [.start true (.call (.deref 1)) (fine 0), .step true,
        .start false (.call (.destroy 1)) (fine 0), .step false, .step false] (Sys.start (st false false false))) = true := by
      decide +kernel
    revert h
    cases hx : Sys.exec (Fine.either (Fine.Indirect.step (alloc false false false) (Fine.plain Demo.T))
        (Fine.Indirect.query throwingCmp)) [.start true (.call (.deref 1)) (fine 0), .step true,
        .start false (.call (.destroy 1)) (fine 0), .step false, .step false] (Sys.start (st false false false)) with
    | running c =>
      intro h
      obtain ⟨c', h1, h2⟩ := race_of_clashes (r := .running c.conf) (p := 100) h
      cases h1
      exact ⟨_, c, hx, h2⟩
    | terminated => intro h; cases h
    | ub b => intro h; cases h
  · exact ⟨[.start true (.call (.deref 1)) (fine 0), .step true, .start false (.call (.destroy 1)) (fine 0), .step false, .step false,
      .step false, .step false, .step false, .step true], by decide +kernel⟩

/-- As `handOver`, with `polymorphic`. -/
def phandOver : List (Event Bool (POp Nat Nat Nat Nat Nat)) :=
  [.start true (.copy 10 1) (fine 200), .start false (.deref 1) (fine 0)] ++ bothStep 25 ++
  [.start false (.move 11 10) (fine 0), .start true (.copy 12 1) (fine 201)] ++ bothStep 25 ++
  [.start true (.destroy 11) (fine 0), .start false (.destroy 12) (fine 0)] ++ bothStep 25

/-- The calls that have ended. -/
def pendedOf {R B Op : Type} : Outcome (Sys Bool Nat Nat R B Op (Out Nat Nat (Nat × Nat))) →
    List (Bool × Seen (Out Nat Nat (Nat × Nat)))
  | .running c => c.done.map fun d => (d.thread, d.saw)
  | _ => []

example : Polymorphic.Reach (alloc false false false) PDemo.P (PDemo.st false false false) ∧
    Spec.Synchronised (Fine.Polymorphic.step (alloc false false false) (Fine.plainP PDemo.P)) (Spec.PLegal (alloc false false false))
      Spec.poperands Spec.pchanges Polymorphic.abs (PDemo.st false false false) phandOver ∧
    (pendedOf (Sys.exec (Fine.Polymorphic.step (alloc false false false) (Fine.plainP PDemo.P)) phandOver
      (Sys.start (PDemo.st false false false)))).length = 6 :=
  ⟨PDemo.st_reach _ _ _, checks_sound (by decide +kernel), by decide +kernel⟩

instance (tr : ATraits Nat Nat) (σ : Spec.Boxes Nat Nat Nat) (o : Either (Op Nat Nat Nat Nat) (Query14 Nat Nat)) :
    Decidable (Spec.ELegal14 tr σ o) := by
  cases o <;> unfold Spec.ELegal14
  · infer_instance
  · unfold Spec.AllLive; infer_instance

/-- As `handOver`, with indirect_cxx14.h. -/
def handOver14 : List (Event Bool (Either (Op Nat Nat Nat Nat) (Query14 Nat Nat))) :=
  [.start true (.call (.copy 10 1)) (fine 200), .start false (.query (.rel .lt 1 3)) (fine 0)] ++ bothStep 20 ++
  [.start false (.call (.move 11 10)) (fine 0), .start true (.call (.copy 12 1)) (fine 201)] ++ bothStep 20 ++
  [.start true (.call (.destroy 11)) (fine 0), .start false (.call (.destroy 12)) (fine 0)] ++ bothStep 20

example : Indirect14.Reach (alloc false false false) Demo.T (st false false false) ∧
    Spec.Synchronised (Fine.either (Fine.Indirect14.step (alloc false false false) (Fine.plain Demo.T))
      (Fine.Indirect14.query throwingCmp)) (Spec.ELegal14 (alloc false false false)) Spec.eoperands14
      (Spec.echanges Spec.changes) Indirect.abs (st false false false) handOver14 ∧
    (endedOf (Sys.exec (Fine.either (Fine.Indirect14.step (alloc false false false) (Fine.plain Demo.T))
      (Fine.Indirect14.query throwingCmp)) handOver14 (Sys.start (st false false false)))).length = 6 :=
  ⟨(Indirect14.reach_iff _ _ _).2 (by rw [show Demo.T.cxx14 = Demo.T from rfl]; exact st_reach _ _ _),
    checks_sound (by decide +kernel), by decide +kernel⟩

example : (alloc false false false).Equality ∧
    ((alloc false false false).pocca = true → (alloc false false false).alwaysEqual = true) ∧ Polymorphic14.Reach (alloc false false false) PDemo.P made14 ∧
    Spec.Synchronised (Fine.Polymorphic14.step (alloc false false false) (Fine.plainP PDemo.P))
      (Spec.PLegal (alloc false false false)) Spec.poperands Spec.pchanges Polymorphic.abs made14 phandOver ∧
    (pendedOf (Sys.exec (Fine.Polymorphic14.step (alloc false false false) (Fine.plainP PDemo.P)) phandOver
      (Sys.start made14))).length = 6 :=
  ⟨alloc_equality _ _ _, by decide, made14_reach, checks_sound (by decide +kernel), by decide +kernel⟩

end

end Verif.Props
