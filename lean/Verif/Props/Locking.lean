import Verif.Proofs.Locking
import Verif.Props.Synced

/-!
# C78: threads that lock mutexes

Clients in the usual style: every object is protected by a mutex (`std::mutex`, or `std::shared_mutex` locked by readers
together and by writers alone), or belongs to one thread, or is never changed.  A thread uses an object of a mutex only while it
has locked it, and changes it only while it has locked it exclusively.  Each thread is checked by itself, as a sequential program
on plain values: while it does not have a mutex it knows nothing about its objects, when it locks one it may rely on the invariant
of that mutex, and before it unlocks it again it restores the invariant (`Spec.Outline`).

`sched` is any schedule: whose turn it is, access by access.  Programs may loop for ever.
-/

set_option autoImplicit false
set_option linter.unusedSectionVars false
set_option linter.unusedSimpArgs false

namespace Verif.Props
open Verif

/-! ### indirect.h -/

section
variable {L A R V X Th M K : Type} [DecidableEq L] [DecidableEq R] [DecidableEq Th] [DecidableEq M]
open Indirect
variable {tr : ATraits A R} {T : TSpec V X} {C : TCmp V} {s : St L A R (Obj V)} {act : Th → K → Todo M (Either (Op L A V X) (Query L V)) (Out L A V) K}
  {guard : L → Spec.Guard Th M} {inv : M → Spec.Boxes L A V → Prop}
  {know : Th → K → (M → Option Mode) → Spec.Boxes L A V → Prop} {place : Th → K} {sched : List (Th × Env)}
  {c : LSys Th M K L A R (Obj V) (Either (Op L A V X) (Query L V)) (Out L A V)}

/-- indirect.h: threads that follow an outline have no undefined behaviour, and use mutexes correctly. -/
theorem C78_no_undefined_behaviour (S : tr.Sound) (h : Indirect.Reach tr T s)
    (O : Spec.Outline (Spec.estep tr T C) (Spec.ELegal tr) Spec.eoperands (Spec.echanges Spec.changes) act guard inv know) (hb : Spec.Begins inv know place (abs s)) :
    (∀ u, LSys.exec (Fine.either (Fine.Indirect.step tr (Fine.plain T)) (Fine.Indirect.query C)) act sched (LSys.start s place) ≠ .ub u) ∧
      LSys.exec (Fine.either (Fine.Indirect.step tr (Fine.plain T)) (Fine.Indirect.query C)) act sched (LSys.start s place) ≠ .misuse :=
  Conc.l_no_ub (api := Conc.lqueried tr T C S) O (h.inv S) hb sched

/-- indirect.h: there is never a data race. -/
theorem C78_no_data_race (S : tr.Sound) (h : Indirect.Reach tr T s)
    (O : Spec.Outline (Spec.estep tr T C) (Spec.ELegal tr) Spec.eoperands (Spec.echanges Spec.changes) act guard inv know) (hb : Spec.Begins inv know place (abs s))
    (hr : LSys.exec (Fine.either (Fine.Indirect.step tr (Fine.plain T)) (Fine.Indirect.query C)) act sched (LSys.start s place) = .running c) : ¬ Spec.Race c.sys.conf :=
  Conc.l_no_race (api := Conc.lqueried tr T C S) O (h.inv S) hb hr

/-- indirect.h: the calls that have ended can be made one after the other, without concurrency, in the order in which they ended, with
the same results.  The objects that no call is changing at the moment have the values that they have then; every thread is at a
place where what its outline says is true of them, and the invariants hold of all mutexes that are not locked exclusively. -/
theorem C78_as_if_one_after_the_other (S : tr.Sound) (h : Indirect.Reach tr T s)
    (O : Spec.Outline (Spec.estep tr T C) (Spec.ELegal tr) Spec.eoperands (Spec.echanges Spec.changes) act guard inv know) (hb : Spec.Begins inv know place (abs s))
    (hr : LSys.exec (Fine.either (Fine.Indirect.step tr (Fine.plain T)) (Fine.Indirect.query C)) act sched (LSys.start s place) = .running c) :
    ∃ σ, Spec.Serial (Spec.estep tr T C) (abs s) c.sys.done σ ∧
      (∀ i z, (∀ j o, c.sys.run j = some o → z ∉ (Spec.echanges Spec.changes) o) → abs (c.sys.conf.view i) z = σ z) ∧
      (∀ i, know i (c.place i) (c.held i) σ) ∧ ∀ m, (∀ i, c.held i m ≠ some .exclusive) → inv m σ :=
  Conc.l_serial (api := Conc.lqueried tr T C S) O (h.inv S) hb hr

/-- indirect.h: the program is ended by `std::terminate` only if that can happen to legal calls made one after the other. -/
theorem C78_terminates_only_as_serially (S : tr.Sound) (h : Indirect.Reach tr T s)
    (O : Spec.Outline (Spec.estep tr T C) (Spec.ELegal tr) Spec.eoperands (Spec.echanges Spec.changes) act guard inv know) (hb : Spec.Begins inv know place (abs s))
    (hr : LSys.exec (Fine.either (Fine.Indirect.step tr (Fine.plain T)) (Fine.Indirect.query C)) act sched (LSys.start s place) = .terminated) :
    ∃ (done : List (Ended Th (Either (Op L A V X) (Query L V)) (Out L A V))) (σ : _) (o : _) (mem : _) (n : _),
      Spec.Serial (Spec.estep tr T C) (abs s) done σ ∧ (Spec.ELegal tr) σ o ∧ (Spec.estep tr T C) mem n σ o = .terminated :=
  Conc.l_terminated (api := Conc.lqueried tr T C S) O (h.inv S) hb hr

/-- indirect.h: when no thread is in a call, every block of storage is owned by exactly one object; so nothing has leaked. -/
theorem C78_nothing_leaks (S : tr.Sound) (h : Indirect.Reach tr T s)
    (O : Spec.Outline (Spec.estep tr T C) (Spec.ELegal tr) Spec.eoperands (Spec.echanges Spec.changes) act guard inv know) (hb : Spec.Begins inv know place (abs s))
    (hr : LSys.exec (Fine.either (Fine.Indirect.step tr (Fine.plain T)) (Fine.Indirect.query C)) act sched (LSys.start s place) = .running c) (hidle : ∀ i, c.sys.run i = none)
    [Inhabited Th] : (∀ p k, c.sys.conf.heap p = some k → ∃ z h, c.sys.conf.hs z = some h ∧ h.p = some p) ∧
    (∀ z h p, c.sys.conf.hs z = some h → h.p = some p → c.sys.conf.heap p ≠ none) ∧
    ∀ z z' h h' p, c.sys.conf.hs z = some h → c.sys.conf.hs z' = some h' → h.p = some p → h'.p = some p → z = z' :=
  Conc.l_owned_once (api := Conc.lqueried tr T C S) O (h.inv S) hb hr hidle default

/-- A mutex that one thread has locked exclusively is not locked by any other. -/
theorem C78_mutual_exclusion (S : tr.Sound) (h : Indirect.Reach tr T s)
    (O : Spec.Outline (Spec.estep tr T C) (Spec.ELegal tr) Spec.eoperands (Spec.echanges Spec.changes) act guard inv know) (hb : Spec.Begins inv know place (abs s))
    (hr : LSys.exec (Fine.either (Fine.Indirect.step tr (Fine.plain T)) (Fine.Indirect.query C)) act sched (LSys.start s place) = .running c) {i j : Th} {m : M}
    (hi : c.held i m = some .exclusive) (hj : c.held j m ≠ none) : i = j :=
  Conc.l_exclusive (api := Conc.lqueried tr T C S) O (h.inv S) hb hr hi hj

end

/-! ### polymorphic.h -/

section
variable {L A R Ty V X Th M K : Type} [DecidableEq L] [DecidableEq R] [DecidableEq Ty] [DecidableEq Th] [DecidableEq M]
open Polymorphic
variable {tr : ATraits A R} {P : PSpec Ty V X} {s : St L A R (PBody Ty V)} {act : Th → K → Todo M (POp L A Ty V X) (Out L A (Ty × V)) K}
  {guard : L → Spec.Guard Th M} {inv : M → Spec.Boxes L A (Ty × V) → Prop}
  {know : Th → K → (M → Option Mode) → Spec.Boxes L A (Ty × V) → Prop} {place : Th → K} {sched : List (Th × Env)}
  {c : LSys Th M K L A R (PBody Ty V) (POp L A Ty V X) (Out L A (Ty × V))}

/-- polymorphic.h: threads that follow an outline have no undefined behaviour, and use mutexes correctly. -/
theorem C78_polymorphic_no_undefined_behaviour (S : tr.Sound) (h : Polymorphic.Reach tr P s)
    (O : Spec.Outline (Spec.pstep tr P) (Spec.PLegal tr) Spec.poperands Spec.pchanges act guard inv know) (hb : Spec.Begins inv know place (abs s)) :
    (∀ u, LSys.exec (Fine.Polymorphic.step tr (Fine.plainP P)) act sched (LSys.start s place) ≠ .ub u) ∧
      LSys.exec (Fine.Polymorphic.step tr (Fine.plainP P)) act sched (LSys.start s place) ≠ .misuse :=
  Conc.l_no_ub (api := Conc.lpolymorphic tr P S) O ⟨(h.sim S).1, (h.sim S).2.inv S⟩ hb sched

/-- polymorphic.h: there is never a data race. -/
theorem C78_polymorphic_no_data_race (S : tr.Sound) (h : Polymorphic.Reach tr P s)
    (O : Spec.Outline (Spec.pstep tr P) (Spec.PLegal tr) Spec.poperands Spec.pchanges act guard inv know) (hb : Spec.Begins inv know place (abs s))
    (hr : LSys.exec (Fine.Polymorphic.step tr (Fine.plainP P)) act sched (LSys.start s place) = .running c) : ¬ Spec.Race c.sys.conf :=
  Conc.l_no_race (api := Conc.lpolymorphic tr P S) O ⟨(h.sim S).1, (h.sim S).2.inv S⟩ hb hr

/-- polymorphic.h: the calls that have ended can be made one after the other, without concurrency, in the order in which they ended, with
the same results.  The objects that no call is changing at the moment have the values that they have then; every thread is at a
place where what its outline says is true of them, and the invariants hold of all mutexes that are not locked exclusively. -/
theorem C78_polymorphic_as_if_one_after_the_other (S : tr.Sound) (h : Polymorphic.Reach tr P s)
    (O : Spec.Outline (Spec.pstep tr P) (Spec.PLegal tr) Spec.poperands Spec.pchanges act guard inv know) (hb : Spec.Begins inv know place (abs s))
    (hr : LSys.exec (Fine.Polymorphic.step tr (Fine.plainP P)) act sched (LSys.start s place) = .running c) :
    ∃ σ, Spec.Serial (Spec.pstep tr P) (abs s) c.sys.done σ ∧
      (∀ i z, (∀ j o, c.sys.run j = some o → z ∉ Spec.pchanges o) → abs (c.sys.conf.view i) z = σ z) ∧
      (∀ i, know i (c.place i) (c.held i) σ) ∧ ∀ m, (∀ i, c.held i m ≠ some .exclusive) → inv m σ :=
  Conc.l_serial (api := Conc.lpolymorphic tr P S) O ⟨(h.sim S).1, (h.sim S).2.inv S⟩ hb hr

/-- polymorphic.h: the program is ended by `std::terminate` only if that can happen to legal calls made one after the other. -/
theorem C78_polymorphic_terminates_only_as_serially (S : tr.Sound) (h : Polymorphic.Reach tr P s)
    (O : Spec.Outline (Spec.pstep tr P) (Spec.PLegal tr) Spec.poperands Spec.pchanges act guard inv know) (hb : Spec.Begins inv know place (abs s))
    (hr : LSys.exec (Fine.Polymorphic.step tr (Fine.plainP P)) act sched (LSys.start s place) = .terminated) :
    ∃ (done : List (Ended Th (POp L A Ty V X) (Out L A (Ty × V)))) (σ : _) (o : _) (mem : _) (n : _),
      Spec.Serial (Spec.pstep tr P) (abs s) done σ ∧ (Spec.PLegal tr) σ o ∧ (Spec.pstep tr P) mem n σ o = .terminated :=
  Conc.l_terminated (api := Conc.lpolymorphic tr P S) O ⟨(h.sim S).1, (h.sim S).2.inv S⟩ hb hr

/-- polymorphic.h: when no thread is in a call, every block of storage is owned by exactly one object; so nothing has leaked. -/
theorem C78_polymorphic_nothing_leaks (S : tr.Sound) (h : Polymorphic.Reach tr P s)
    (O : Spec.Outline (Spec.pstep tr P) (Spec.PLegal tr) Spec.poperands Spec.pchanges act guard inv know) (hb : Spec.Begins inv know place (abs s))
    (hr : LSys.exec (Fine.Polymorphic.step tr (Fine.plainP P)) act sched (LSys.start s place) = .running c) (hidle : ∀ i, c.sys.run i = none)
    [Inhabited Th] : (∀ p k, c.sys.conf.heap p = some k → ∃ z h, c.sys.conf.hs z = some h ∧ h.p = some p) ∧
    (∀ z h p, c.sys.conf.hs z = some h → h.p = some p → c.sys.conf.heap p ≠ none) ∧
    ∀ z z' h h' p, c.sys.conf.hs z = some h → c.sys.conf.hs z' = some h' → h.p = some p → h'.p = some p → z = z' :=
  Conc.l_owned_once (api := Conc.lpolymorphic tr P S) O ⟨(h.sim S).1, (h.sim S).2.inv S⟩ hb hr hidle default

end

/-! ### indirect_cxx14.h -/

section
variable {L A R V X Th M K : Type} [DecidableEq L] [DecidableEq R] [DecidableEq Th] [DecidableEq M]
open Indirect
variable {tr : ATraits A R} {T : TSpec V X} {C : TCmp V} {s : St L A R (Obj V)} {act : Th → K → Todo M (Either (Op L A V X) (Query14 L V)) (Out L A V) K}
  {guard : L → Spec.Guard Th M} {inv : M → Spec.Boxes L A V → Prop}
  {know : Th → K → (M → Option Mode) → Spec.Boxes L A V → Prop} {place : Th → K} {sched : List (Th × Env)}
  {c : LSys Th M K L A R (Obj V) (Either (Op L A V X) (Query14 L V)) (Out L A V)}

/-- indirect_cxx14.h: threads that follow an outline have no undefined behaviour, and use mutexes correctly. -/
theorem C78_indirect14_no_undefined_behaviour (S : tr.Sound) (h : Indirect14.Reach tr T s)
    (O : Spec.Outline (Spec.estep14 tr T C) (Spec.ELegal14 tr) Spec.eoperands14 (Spec.echanges Spec.changes) act guard inv know) (hb : Spec.Begins inv know place (abs s)) :
    (∀ u, LSys.exec (Fine.either (Fine.Indirect14.step tr (Fine.plain T)) (Fine.Indirect14.query C)) act sched (LSys.start s place) ≠ .ub u) ∧
      LSys.exec (Fine.either (Fine.Indirect14.step tr (Fine.plain T)) (Fine.Indirect14.query C)) act sched (LSys.start s place) ≠ .misuse :=
  Conc.l_no_ub (api := Conc.lqueried14 tr T C S) O (((Indirect14.reach_iff tr T s).1 h).inv S) hb sched

/-- indirect_cxx14.h: there is never a data race. -/
theorem C78_indirect14_no_data_race (S : tr.Sound) (h : Indirect14.Reach tr T s)
    (O : Spec.Outline (Spec.estep14 tr T C) (Spec.ELegal14 tr) Spec.eoperands14 (Spec.echanges Spec.changes) act guard inv know) (hb : Spec.Begins inv know place (abs s))
    (hr : LSys.exec (Fine.either (Fine.Indirect14.step tr (Fine.plain T)) (Fine.Indirect14.query C)) act sched (LSys.start s place) = .running c) : ¬ Spec.Race c.sys.conf :=
  Conc.l_no_race (api := Conc.lqueried14 tr T C S) O (((Indirect14.reach_iff tr T s).1 h).inv S) hb hr

/-- indirect_cxx14.h: the calls that have ended can be made one after the other, without concurrency, in the order in which they ended, with
the same results.  The objects that no call is changing at the moment have the values that they have then; every thread is at a
place where what its outline says is true of them, and the invariants hold of all mutexes that are not locked exclusively. -/
theorem C78_indirect14_as_if_one_after_the_other (S : tr.Sound) (h : Indirect14.Reach tr T s)
    (O : Spec.Outline (Spec.estep14 tr T C) (Spec.ELegal14 tr) Spec.eoperands14 (Spec.echanges Spec.changes) act guard inv know) (hb : Spec.Begins inv know place (abs s))
    (hr : LSys.exec (Fine.either (Fine.Indirect14.step tr (Fine.plain T)) (Fine.Indirect14.query C)) act sched (LSys.start s place) = .running c) :
    ∃ σ, Spec.Serial (Spec.estep14 tr T C) (abs s) c.sys.done σ ∧
      (∀ i z, (∀ j o, c.sys.run j = some o → z ∉ (Spec.echanges Spec.changes) o) → abs (c.sys.conf.view i) z = σ z) ∧
      (∀ i, know i (c.place i) (c.held i) σ) ∧ ∀ m, (∀ i, c.held i m ≠ some .exclusive) → inv m σ :=
  Conc.l_serial (api := Conc.lqueried14 tr T C S) O (((Indirect14.reach_iff tr T s).1 h).inv S) hb hr

/-- indirect_cxx14.h: the program is ended by `std::terminate` only if that can happen to legal calls made one after the other. -/
theorem C78_indirect14_terminates_only_as_serially (S : tr.Sound) (h : Indirect14.Reach tr T s)
    (O : Spec.Outline (Spec.estep14 tr T C) (Spec.ELegal14 tr) Spec.eoperands14 (Spec.echanges Spec.changes) act guard inv know) (hb : Spec.Begins inv know place (abs s))
    (hr : LSys.exec (Fine.either (Fine.Indirect14.step tr (Fine.plain T)) (Fine.Indirect14.query C)) act sched (LSys.start s place) = .terminated) :
    ∃ (done : List (Ended Th (Either (Op L A V X) (Query14 L V)) (Out L A V))) (σ : _) (o : _) (mem : _) (n : _),
      Spec.Serial (Spec.estep14 tr T C) (abs s) done σ ∧ (Spec.ELegal14 tr) σ o ∧ (Spec.estep14 tr T C) mem n σ o = .terminated :=
  Conc.l_terminated (api := Conc.lqueried14 tr T C S) O (((Indirect14.reach_iff tr T s).1 h).inv S) hb hr

/-- indirect_cxx14.h: when no thread is in a call, every block of storage is owned by exactly one object; so nothing has leaked. -/
theorem C78_indirect14_nothing_leaks (S : tr.Sound) (h : Indirect14.Reach tr T s)
    (O : Spec.Outline (Spec.estep14 tr T C) (Spec.ELegal14 tr) Spec.eoperands14 (Spec.echanges Spec.changes) act guard inv know) (hb : Spec.Begins inv know place (abs s))
    (hr : LSys.exec (Fine.either (Fine.Indirect14.step tr (Fine.plain T)) (Fine.Indirect14.query C)) act sched (LSys.start s place) = .running c) (hidle : ∀ i, c.sys.run i = none)
    [Inhabited Th] : (∀ p k, c.sys.conf.heap p = some k → ∃ z h, c.sys.conf.hs z = some h ∧ h.p = some p) ∧
    (∀ z h p, c.sys.conf.hs z = some h → h.p = some p → c.sys.conf.heap p ≠ none) ∧
    ∀ z z' h h' p, c.sys.conf.hs z = some h → c.sys.conf.hs z' = some h' → h.p = some p → h'.p = some p → z = z' :=
  Conc.l_owned_once (api := Conc.lqueried14 tr T C S) O (((Indirect14.reach_iff tr T s).1 h).inv S) hb hr hidle default

end

/-! ### polymorphic_cxx14.h -/

section
variable {L A R Ty V X Th M K : Type} [DecidableEq L] [DecidableEq R] [DecidableEq Ty] [DecidableEq Th] [DecidableEq M]
open Polymorphic
variable {tr : ATraits A R} {P : PSpec Ty V X} {s : St L A R (PBody Ty V)} {act : Th → K → Todo M (POp L A Ty V X) (Out L A (Ty × V)) K}
  {guard : L → Spec.Guard Th M} {inv : M → Spec.Boxes L A (Ty × V) → Prop}
  {know : Th → K → (M → Option Mode) → Spec.Boxes L A (Ty × V) → Prop} {place : Th → K} {sched : List (Th × Env)}
  {c : LSys Th M K L A R (PBody Ty V) (POp L A Ty V X) (Out L A (Ty × V))}

/-- polymorphic_cxx14.h: threads that follow an outline have no undefined behaviour, and use mutexes correctly. -/
theorem C78_polymorphic14_no_undefined_behaviour (S : tr.Sound) (E : tr.Equality) (hq : tr.pocca = true → tr.alwaysEqual = true)
    (h : Polymorphic14.Reach tr P s)
    (O : Spec.Outline (Spec.pstep14 tr P) (Spec.PLegal tr) Spec.poperands Spec.pchanges act guard inv know) (hb : Spec.Begins inv know place (abs s)) :
    (∀ u, LSys.exec (Fine.Polymorphic14.step tr (Fine.plainP P)) act sched (LSys.start s place) ≠ .ub u) ∧
      LSys.exec (Fine.Polymorphic14.step tr (Fine.plainP P)) act sched (LSys.start s place) ≠ .misuse :=
  Conc.l_no_ub (api := Conc.lpolymorphic14 tr P S E hq) O (Conc.ok14 S E hq h) hb sched

/-- polymorphic_cxx14.h: there is never a data race. -/
theorem C78_polymorphic14_no_data_race (S : tr.Sound) (E : tr.Equality) (hq : tr.pocca = true → tr.alwaysEqual = true)
    (h : Polymorphic14.Reach tr P s)
    (O : Spec.Outline (Spec.pstep14 tr P) (Spec.PLegal tr) Spec.poperands Spec.pchanges act guard inv know) (hb : Spec.Begins inv know place (abs s))
    (hr : LSys.exec (Fine.Polymorphic14.step tr (Fine.plainP P)) act sched (LSys.start s place) = .running c) : ¬ Spec.Race c.sys.conf :=
  Conc.l_no_race (api := Conc.lpolymorphic14 tr P S E hq) O (Conc.ok14 S E hq h) hb hr

/-- polymorphic_cxx14.h: the calls that have ended can be made one after the other, without concurrency, in the order in which they ended, with
the same results.  The objects that no call is changing at the moment have the values that they have then; every thread is at a
place where what its outline says is true of them, and the invariants hold of all mutexes that are not locked exclusively. -/
theorem C78_polymorphic14_as_if_one_after_the_other (S : tr.Sound) (E : tr.Equality) (hq : tr.pocca = true → tr.alwaysEqual = true)
    (h : Polymorphic14.Reach tr P s)
    (O : Spec.Outline (Spec.pstep14 tr P) (Spec.PLegal tr) Spec.poperands Spec.pchanges act guard inv know) (hb : Spec.Begins inv know place (abs s))
    (hr : LSys.exec (Fine.Polymorphic14.step tr (Fine.plainP P)) act sched (LSys.start s place) = .running c) :
    ∃ σ, Spec.Serial (Spec.pstep14 tr P) (abs s) c.sys.done σ ∧
      (∀ i z, (∀ j o, c.sys.run j = some o → z ∉ Spec.pchanges o) → abs (c.sys.conf.view i) z = σ z) ∧
      (∀ i, know i (c.place i) (c.held i) σ) ∧ ∀ m, (∀ i, c.held i m ≠ some .exclusive) → inv m σ :=
  Conc.l_serial (api := Conc.lpolymorphic14 tr P S E hq) O (Conc.ok14 S E hq h) hb hr

/-- polymorphic_cxx14.h: the program is ended by `std::terminate` only if that can happen to legal calls made one after the other. -/
theorem C78_polymorphic14_terminates_only_as_serially (S : tr.Sound) (E : tr.Equality) (hq : tr.pocca = true → tr.alwaysEqual = true)
    (h : Polymorphic14.Reach tr P s)
    (O : Spec.Outline (Spec.pstep14 tr P) (Spec.PLegal tr) Spec.poperands Spec.pchanges act guard inv know) (hb : Spec.Begins inv know place (abs s))
    (hr : LSys.exec (Fine.Polymorphic14.step tr (Fine.plainP P)) act sched (LSys.start s place) = .terminated) :
    ∃ (done : List (Ended Th (POp L A Ty V X) (Out L A (Ty × V)))) (σ : _) (o : _) (mem : _) (n : _),
      Spec.Serial (Spec.pstep14 tr P) (abs s) done σ ∧ (Spec.PLegal tr) σ o ∧ (Spec.pstep14 tr P) mem n σ o = .terminated :=
  Conc.l_terminated (api := Conc.lpolymorphic14 tr P S E hq) O (Conc.ok14 S E hq h) hb hr

/-- polymorphic_cxx14.h: when no thread is in a call, every block of storage is owned by exactly one object; so nothing has leaked. -/
theorem C78_polymorphic14_nothing_leaks (S : tr.Sound) (E : tr.Equality) (hq : tr.pocca = true → tr.alwaysEqual = true)
    (h : Polymorphic14.Reach tr P s)
    (O : Spec.Outline (Spec.pstep14 tr P) (Spec.PLegal tr) Spec.poperands Spec.pchanges act guard inv know) (hb : Spec.Begins inv know place (abs s))
    (hr : LSys.exec (Fine.Polymorphic14.step tr (Fine.plainP P)) act sched (LSys.start s place) = .running c) (hidle : ∀ i, c.sys.run i = none)
    [Inhabited Th] : (∀ p k, c.sys.conf.heap p = some k → ∃ z h, c.sys.conf.hs z = some h ∧ h.p = some p) ∧
    (∀ z h p, c.sys.conf.hs z = some h → h.p = some p → c.sys.conf.heap p ≠ none) ∧
    ∀ z z' h h' p, c.sys.conf.hs z = some h → c.sys.conf.hs z' = some h' → h.p = some p → h'.p = some p → z = z' :=
  Conc.l_owned_once (api := Conc.lpolymorphic14 tr P S E hq) O (Conc.ok14 S E hq h) hb hr hidle default

end

/-! ### An example: one object, any number of readers and writers -/

section
open Demo

/-- Places in the program of a reader or a writer. -/
inductive Step where
  /-- a reader, about to lock the mutex together with other readers -/
  | read
  /-- it has locked the mutex, and copies the object -/
  | reading
  /-- it has copied the object, and unlocks the mutex -/
  | copied
  /-- it could not copy the object, and unlocks the mutex -/
  | failed
  /-- it reads its copy -/
  | have
  /-- its copy had this value; it destroys it and begins again -/
  | got (v : Nat)
  /-- a writer, about to lock the mutex exclusively -/
  | write
  /-- it adds one to the object -/
  | first
  /-- it adds one to the object again -/
  | second
  /-- it unlocks the mutex, and begins again -/
  | written
  deriving DecidableEq, Repr

/-- The calls that readers and writers make, for any of the four types; `num` is the number that is in a value. -/
structure Calls (Op V : Type) where
  copy : Nat → Nat → Op
  deref : Nat → Op
  destroy : Nat → Op
  /-- adds one to the number -/
  add : Nat → Op
  num : V → Nat

/-- Readers and writers of object 2; the copies of thread `i` are called `i + 10`. -/
def readersWriters {Op V : Type} (W : Calls Op V) (i : Nat) : Step → Todo Unit Op (Out Nat Nat V) Step
  | .read => .lock () .shared .reading
  | .reading => .call (W.copy (i + 10) 2) fun
    | .ret _ => .copied
    | .exn _ => .failed
  | .copied => .unlock () .have
  | .failed => .unlock () .read
  | .have => .call (W.deref (i + 10)) fun
    | .ret (.value v) => .got (W.num v)
    | _ => .got 1
  | .got _ => .call (W.destroy (i + 10)) fun _ => .read
  | .write => .lock () .exclusive .first
  | .first => .call (W.add 2) fun _ => .second
  | .second => .call (W.add 2) fun _ => .written
  | .written => .unlock () .write

/-- Object 2 is protected by the mutex. -/
def readersGuard (z : Nat) : Spec.Guard Nat Unit :=
  if z = 2 then .mutex () else if z < 10 then .constant else .thread (z - 10)

/-- Object `z` has a value; its number has this remainder. -/
def Parity {V : Type} (num : V → Nat) (σ : Spec.Boxes Nat Nat V) (z r : Nat) : Prop :=
  ∃ v, Spec.valueOf σ z = some v ∧ num v % 2 = r

/-- What a reader or writer knows. -/
def readersKnow {V : Type} (num : V → Nat) (i : Nat) (k : Step) (held : Unit → Option Mode) (σ : Spec.Boxes Nat Nat V) : Prop :=
  match k with
  | .read => held () = none ∧ Spec.Dead σ (i + 10)
  | .reading => held () = some .shared ∧ Spec.Dead σ (i + 10) ∧ Parity num σ 2 0
  | .copied => held () = some .shared ∧ Parity num σ (i + 10) 0
  | .failed => held () = some .shared ∧ Spec.Dead σ (i + 10)
  | .have => held () = none ∧ Parity num σ (i + 10) 0
  | .got v => held () = none ∧ Parity num σ (i + 10) 0 ∧ v % 2 = 0
  | .write => held () = none
  | .first => held () = some .exclusive ∧ Parity num σ 2 0
  | .second => held () = some .exclusive ∧ Parity num σ 2 1
  | .written => held () = some .exclusive ∧ Parity num σ 2 0

theorem readersGuard_own (i : Nat) : readersGuard (i + 10) = .thread i := by
  simp [readersGuard, show ¬ i + 10 = 2 by omega, show ¬ i + 10 < 10 by omega]

theorem parity_live {V : Type} {num : V → Nat} {σ : Spec.Boxes Nat Nat V} {z r : Nat} (h : Parity num σ z r) : Spec.Live σ z := by
  obtain ⟨v, h, -⟩ := h
  unfold Spec.valueOf at h
  cases hz : σ z with
  | none => rw [hz] at h; cases h
  | some b => exact ⟨b, hz⟩

theorem parity_congr {V : Type} {num : V → Nat} {σ τ : Spec.Boxes Nat Nat V} {z r : Nat} (e : σ z = τ z) (h : Parity num σ z r) :
    Parity num τ z r := by
  unfold Parity Spec.valueOf at *; rwa [e] at h

section
variable {N Op V : Type} {step : Bool → N → Spec.Boxes Nat Nat V → Op → Spec.Result Nat Nat V} {legal : Spec.Boxes Nat Nat V → Op → Prop}
  {operands changes : Op → List Nat}

/-- What is used of the specification of the calls. -/
structure Calls.Fits (W : Calls Op V) (step : Bool → N → Spec.Boxes Nat Nat V → Op → Spec.Result Nat Nat V)
    (legal : Spec.Boxes Nat Nat V → Op → Prop) (operands changes : Op → List Nat) : Prop where
  operands : ∀ x y, operands (W.copy x y) = [x, y] ∧ operands (W.deref x) = [x] ∧ operands (W.destroy x) = [x] ∧ operands (W.add x) = [x]
  changes : ∀ x y, changes (W.copy x y) = [x] ∧ changes (W.deref x) = [] ∧ changes (W.destroy x) = [x] ∧ changes (W.add x) = [x]
  copy : ∀ mem n σ x y v, Spec.Dead σ x → Spec.valueOf σ y = some v → legal σ (W.copy x y) ∧
    ((∃ e, step mem n σ (W.copy x y) = .threw e σ) ∨ ∃ a, step mem n σ (W.copy x y) = .ret .unit (Spec.put σ x ⟨a, some v⟩))
  deref : ∀ mem n σ x v, Spec.valueOf σ x = some v → legal σ (W.deref x) ∧ step mem n σ (W.deref x) = .ret (.value v) σ
  destroy : ∀ mem n σ x, Spec.Live σ x → legal σ (W.destroy x) ∧ step mem n σ (W.destroy x) = .ret .unit (Spec.drop σ x)
  add : ∀ mem n σ x v, Spec.valueOf σ x = some v → legal σ (W.add x) ∧
    ∃ v', W.num v' = W.num v + 1 ∧ step mem n σ (W.add x) = .ret .unit (Spec.setVal σ x (some v'))

/-- The outline holds. -/
theorem readers_outline [Inhabited N] (W : Calls Op V) (h : W.Fits step legal operands changes) :
    Spec.Outline step legal operands changes (readersWriters W) readersGuard (fun _ σ => Parity W.num σ 2 0) (readersKnow W.num) where
  inv_local _ _ _ h := parity_congr (h 2 rfl)
  know_local i k held σ τ h hk := by
    have h1 : σ (i + 10) = τ (i + 10) := h _ (by simp [Spec.MayUse, readersGuard_own])
    have h2 : held () ≠ none → σ 2 = τ 2 := fun hh => h 2 (by simpa [Spec.MayUse, readersGuard] using hh)
    cases k <;> simp only [readersKnow, Spec.Dead] at hk ⊢
    · exact ⟨hk.1, h1 ▸ hk.2⟩
    · exact ⟨hk.1, h1 ▸ hk.2.1, parity_congr (h2 (by simp [hk.1])) hk.2.2⟩
    · exact ⟨hk.1, parity_congr h1 hk.2⟩
    · exact ⟨hk.1, h1 ▸ hk.2⟩
    · exact ⟨hk.1, parity_congr h1 hk.2⟩
    · exact ⟨hk.1, parity_congr h1 hk.2.1, hk.2.2⟩
    · exact hk
    · exact ⟨hk.1, parity_congr (h2 (by simp [hk.1])) hk.2⟩
    · exact ⟨hk.1, parity_congr (h2 (by simp [hk.1])) hk.2⟩
    · exact ⟨hk.1, parity_congr (h2 (by simp [hk.1])) hk.2⟩
  lock i k held σ m mode k' hk ha := by
    cases k <;> simp only [readersWriters, reduceCtorEq, Todo.lock.injEq] at ha
    · obtain ⟨-, rfl, rfl⟩ := ha
      refine ⟨hk.1, fun τ hτ hi => ⟨by simp, ?_, hi⟩⟩
      have h1 : σ (i + 10) = τ (i + 10) := hτ _ (by simp [Spec.MayUse, readersGuard_own])
      exact h1.symm.trans hk.2
    · obtain ⟨-, rfl, rfl⟩ := ha
      exact ⟨hk, fun τ hτ hi => ⟨by simp, hi⟩⟩
  unlock i k held σ m k' hk ha := by
    cases k <;> simp only [readersWriters, reduceCtorEq, Todo.unlock.injEq] at ha
    · obtain ⟨-, rfl⟩ := ha
      exact ⟨by simp [hk.1], by simp [hk.1], by simp, hk.2⟩
    · obtain ⟨-, rfl⟩ := ha
      exact ⟨by simp [hk.1], by simp [hk.1], by simp, hk.2⟩
    · obtain ⟨-, rfl⟩ := ha
      exact ⟨by simp [hk.1], fun _ => hk.2, by simp [readersKnow]⟩
  call i k held σ o k' hk ha := by
    have own : Spec.MayUse readersGuard i held (i + 10) ∧ Spec.MayChange readersGuard i held (i + 10) := by
      simp [Spec.MayUse, Spec.MayChange, readersGuard_own]
    have ho := h.operands (i + 10) 2
    have hc := h.changes (i + 10) 2
    have write : ∀ r, held () = some .exclusive → Parity W.num σ 2 r →
        (∀ z ∈ operands (W.add 2), Spec.MayUse readersGuard i held z) ∧ (∀ z ∈ changes (W.add 2), Spec.MayChange readersGuard i held z) ∧
        legal σ (W.add 2) ∧ ∀ mem n, Spec.After (fun _ τ => Parity W.num τ 2 ((r + 1) % 2)) (step mem n σ (W.add 2)) := by
      rintro r h1 ⟨v, hv, hp⟩
      refine ⟨?_, ?_, (h.add true default σ 2 v hv).1, fun mem n => ?_⟩
      · rw [(h.operands 2 2).2.2.2]; simp [Spec.MayUse, readersGuard, h1]
      · rw [(h.changes 2 2).2.2.2]; simp [Spec.MayChange, readersGuard, h1]
      · obtain ⟨b, hb⟩ := parity_live ⟨v, hv, hp⟩
        obtain ⟨v', h5, h6⟩ := (h.add mem n σ 2 v hv).2
        rw [h6]
        exact ⟨v', by simp [Spec.setVal, Spec.valueOf, hb], by omega⟩
    cases k <;> simp only [readersWriters, reduceCtorEq, Todo.call.injEq] at ha
    · obtain ⟨rfl, rfl⟩ := ha
      obtain ⟨h1, h2, v, hv, hp⟩ := hk
      refine ⟨?_, ?_, (h.copy true default σ _ _ v h2 hv).1, fun mem n => ?_⟩
      · rw [ho.1]
        simp only [List.mem_cons, List.not_mem_nil, or_false, forall_eq_or_imp, forall_eq]
        exact ⟨own.1, by simp [Spec.MayUse, readersGuard, h1]⟩
      · rw [hc.1]; simp [own.2]
      · rcases (h.copy mem n σ _ _ v h2 hv).2 with ⟨e, h5⟩ | ⟨a, h5⟩
        · rw [h5]; exact ⟨h1, h2⟩
        · rw [h5]; exact ⟨h1, v, by simp [Spec.put, Spec.valueOf], hp⟩
    · obtain ⟨rfl, rfl⟩ := ha
      obtain ⟨h1, v, hv, hp⟩ := hk
      refine ⟨?_, ?_, (h.deref true default σ _ v hv).1, fun mem n => ?_⟩
      · rw [ho.2.1]; simp [own.1]
      · rw [hc.2.1]; simp
      · rw [(h.deref mem n σ _ v hv).2]; exact ⟨h1, ⟨v, hv, hp⟩, hp⟩
    · obtain ⟨rfl, rfl⟩ := ha
      obtain ⟨h1, h2, -⟩ := hk
      refine ⟨?_, ?_, (h.destroy true default σ _ (parity_live h2)).1, fun mem n => ?_⟩
      · rw [ho.2.2.1]; simp [own.1]
      · rw [hc.2.2.1]; simp [own.2]
      · rw [(h.destroy mem n σ _ (parity_live h2)).2]; exact ⟨h1, by simp [Spec.drop, Spec.Dead]⟩
    · obtain ⟨rfl, rfl⟩ := ha
      obtain ⟨w1, w2, w3, w4⟩ := write 0 hk.1 hk.2
      refine ⟨w1, w2, w3, fun mem n => ?_⟩
      have := w4 mem n
      revert this
      cases step mem n σ (W.add 2) with
      | terminated => exact id
      | illegal => exact id
      | ret => exact fun this => ⟨hk.1, this⟩
      | threw => exact fun this => ⟨hk.1, this⟩
    · obtain ⟨rfl, rfl⟩ := ha
      obtain ⟨w1, w2, w3, w4⟩ := write 1 hk.1 hk.2
      refine ⟨w1, w2, w3, fun mem n => ?_⟩
      have := w4 mem n
      revert this
      cases step mem n σ (W.add 2) with
      | terminated => exact id
      | illegal => exact id
      | ret => exact fun this => ⟨hk.1, this⟩
      | threw => exact fun this => ⟨hk.1, this⟩

end

/-- With indirect. -/
def callsI {Q : Type} : Calls (Either (Op Nat Nat Nat Nat) Q) Nat :=
  ⟨fun x y => .call (.copy x y), fun x => .call (.deref x), fun x => .call (.destroy x), fun x => .call (.modify x (· + 1)), id⟩

/-- With polymorphic. -/
def callsP : Calls (POp Nat Nat Nat Nat Nat) (Nat × Nat) :=
  ⟨.copy, .deref, .destroy, fun x => .modify x (fun _ v => v + 1), fun v => v.2⟩

theorem value_box {V : Type} {σ : Spec.Boxes Nat Nat V} {z : Nat} {v : V} (h : Spec.valueOf σ z = some v) :
    ∃ b, σ z = some b ∧ b.val = some v := by
  unfold Spec.valueOf at h
  cases hz : σ z with
  | none => rw [hz] at h; cases h
  | some b => exact ⟨b, rfl, by rw [hz] at h; exact h⟩

theorem fits_indirect (tr : ATraits Nat Nat) (C : TCmp Nat) :
    callsI.Fits (Spec.estep tr Demo.T C) (Spec.ELegal tr) Spec.eoperands (Spec.echanges Spec.changes) where
  operands _ _ := ⟨rfl, rfl, rfl, rfl⟩
  changes _ _ := ⟨rfl, rfl, rfl, rfl⟩
  copy mem n σ x y v hx hy := by
    obtain ⟨b, hb, hv⟩ := value_box hy
    refine ⟨⟨hx, b, hb⟩, ?_⟩
    simp only [callsI, Spec.estep, Spec.step, hb, Spec.copyA, hv, Spec.build, Demo.T]
    cases mem
    · exact .inl ⟨_, rfl⟩
    · by_cases hn : n 0 = 13
      · simp only [hn, if_true]; exact .inl ⟨_, rfl⟩
      · simp only [hn, if_false]; exact .inr ⟨_, rfl⟩
  deref mem n σ x v hx := ⟨⟨v, hx⟩, by simp only [callsI, Spec.estep, Spec.step, hx]⟩
  destroy mem n σ x hx := ⟨hx, rfl⟩
  add mem n σ x v hx := ⟨⟨v, hx⟩, v + 1, rfl, by simp only [callsI, Spec.estep, Spec.step, hx]⟩

theorem fits_indirect14 (tr : ATraits Nat Nat) (C : TCmp Nat) :
    callsI.Fits (Spec.estep14 tr Demo.T C) (Spec.ELegal14 tr) Spec.eoperands14 (Spec.echanges Spec.changes) where
  operands _ _ := ⟨rfl, rfl, rfl, rfl⟩
  changes _ _ := ⟨rfl, rfl, rfl, rfl⟩
  copy mem n σ x y v hx hy := by
    obtain ⟨b, hb, hv⟩ := value_box hy
    refine ⟨⟨hx, b, hb⟩, ?_⟩
    simp only [callsI, Spec.estep14, Spec.step, hb, Spec.copyA, hv, Spec.build, TSpec.cxx14, Demo.T]
    cases mem
    · exact .inl ⟨_, rfl⟩
    · by_cases hn : n 0 = 13
      · simp only [hn, if_true]; exact .inl ⟨_, rfl⟩
      · simp only [hn, if_false]; exact .inr ⟨_, rfl⟩
  deref mem n σ x v hx := ⟨⟨v, hx⟩, by simp only [callsI, Spec.estep14, Spec.step, hx]⟩
  destroy mem n σ x hx := ⟨hx, rfl⟩
  add mem n σ x v hx := ⟨⟨v, hx⟩, v + 1, rfl, by simp only [callsI, Spec.estep14, Spec.step, hx]⟩

theorem fits_polymorphic (tr : ATraits Nat Nat) : callsP.Fits (Spec.pstep tr PDemo.P) (Spec.PLegal tr) Spec.poperands Spec.pchanges where
  operands _ _ := ⟨rfl, rfl, rfl, rfl⟩
  changes _ _ := ⟨rfl, rfl, rfl, rfl⟩
  copy mem n σ x y v hx hy := by
    obtain ⟨b, hb, hv⟩ := value_box hy
    refine ⟨⟨hx, b, hb⟩, ?_⟩
    simp only [callsP, Spec.pstep, hb, Spec.copyA, hv, Spec.build, PSpec.owned, PDemo.P]
    cases mem
    · exact .inl ⟨_, rfl⟩
    · by_cases hn : n = 13
      · simp only [hn, if_true]; exact .inl ⟨_, rfl⟩
      · simp only [hn, if_false]; exact .inr ⟨_, rfl⟩
  deref mem n σ x v hx := ⟨⟨v, hx⟩, by simp only [callsP, Spec.pstep, hx]⟩
  destroy mem n σ x hx := ⟨hx, rfl⟩
  add mem n σ x v hx := ⟨⟨v, hx⟩, (v.1, v.2 + 1), rfl, by simp only [callsP, Spec.pstep, hx]⟩

theorem fits_polymorphic14 (tr : ATraits Nat Nat) :
    callsP.Fits (Spec.pstep14 tr PDemo.P) (Spec.PLegal tr) Spec.poperands Spec.pchanges where
  operands := (fits_polymorphic tr).operands
  changes := (fits_polymorphic tr).changes
  copy := (fits_polymorphic tr).copy
  deref := (fits_polymorphic tr).deref
  destroy := (fits_polymorphic tr).destroy
  add := (fits_polymorphic tr).add

/-- Thread 0 is a writer, all others are readers. -/
def readersStart (i : Nat) : Step := if i = 0 then .write else .read

theorem readers_begin {V : Type} {num : V → Nat} {σ : Spec.Boxes Nat Nat V} (h2 : Parity num σ 2 0) (h10 : ∀ i, σ (i + 10) = none) :
    Spec.Begins (fun (_ : Unit) σ => Parity num σ 2 0) (readersKnow num) readersStart σ := by
  refine ⟨fun i => ?_, fun _ => h2⟩
  unfold readersStart
  split
  · rfl
  · exact ⟨rfl, h10 i⟩

/-- indirect.h: readers never see the state between the two writes, however many there are, and however their accesses are
interleaved with those of the writer. -/
example (C : TCmp Nat) (sched : List (Nat × Env)) : ∀ c,
    LSys.exec (Fine.either (Fine.Indirect.step (alloc false false false) (Fine.plain Demo.T)) (Fine.Indirect.query C))
      (readersWriters callsI) sched (LSys.start s0 readersStart) = .running c → ∀ i v, c.place i = .got v → v % 2 = 0 := by
  intro c hr i v hv
  obtain ⟨σ, -, -, h, -⟩ := C78_as_if_one_after_the_other (alloc_sound _ _ _) s0_reach
    (readers_outline callsI (fits_indirect _ C)) (readers_begin ⟨8, by decide, rfl⟩ fun _ => rfl) hr
  have := h i
  rw [hv] at this
  exact this.2.2

/-- indirect_cxx14.h, likewise. -/
example (C : TCmp Nat) (sched : List (Nat × Env)) : ∀ c,
    LSys.exec (Fine.either (Fine.Indirect14.step (alloc false false false) (Fine.plain Demo.T)) (Fine.Indirect14.query C))
      (readersWriters callsI) sched (LSys.start s0 readersStart) = .running c → ∀ i v, c.place i = .got v → v % 2 = 0 := by
  intro c hr i v hv
  obtain ⟨σ, -, -, h, -⟩ := C78_indirect14_as_if_one_after_the_other (alloc_sound _ _ _)
    ((Indirect14.reach_iff _ Demo.T _).2 s0_reach)
    (readers_outline callsI (fits_indirect14 _ C)) (readers_begin ⟨8, by decide, rfl⟩ fun _ => rfl) hr
  have := h i
  rw [hv] at this
  exact this.2.2

/-- polymorphic.h, likewise. -/
example (sched : List (Nat × Env)) : ∀ c,
    LSys.exec (Fine.Polymorphic.step (alloc false false false) (Fine.plainP PDemo.P)) (readersWriters callsP) sched
      (LSys.start PDemo.s0 readersStart) = .running c → ∀ i v, c.place i = .got v → v % 2 = 0 := by
  intro c hr i v hv
  obtain ⟨σ, -, -, h, -⟩ := C78_polymorphic_as_if_one_after_the_other (alloc_sound _ _ _) (PDemo.st_reach _ _ _)
    (readers_outline callsP (fits_polymorphic _)) (readers_begin ⟨(2, 2008), by decide, rfl⟩ fun _ => rfl) hr
  have := h i
  rw [hv] at this
  exact this.2.2

/-- Object 2 is made with polymorphic_cxx14.h. -/
def second14 : St Nat Nat Nat (PBody Nat Nat) :=
  match Polymorphic14.run (alloc false false false) PDemo.P [(.make 2 (some 5) (.from 1 (.arg 8)), fine 100)] St.init with
  | .done _ s => s
  | _ => St.init

theorem second14_reach : Polymorphic14.Reach (alloc false false false) PDemo.P second14 := by
  unfold second14
  cases h : Polymorphic14.run (alloc false false false) PDemo.P [(.make 2 (some 5) (.from 1 (.arg 8)), fine 100)]
      (St.init : St Nat Nat Nat (PBody Nat Nat)) with
  | done log s => exact Polymorphic14.Reach.run .init (by unfold Polymorphic14.LegalRun; decide) h
  | _ => exact .init

/-- polymorphic_cxx14.h, likewise. -/
example (sched : List (Nat × Env)) : ∀ c,
    LSys.exec (Fine.Polymorphic14.step (alloc false false false) (Fine.plainP PDemo.P)) (readersWriters callsP) sched
      (LSys.start second14 readersStart) = .running c → ∀ i v, c.place i = .got v → v % 2 = 0 := by
  intro c hr i v hv
  obtain ⟨σ, -, -, h, -⟩ := C78_polymorphic14_as_if_one_after_the_other (alloc_sound _ _ _) (alloc_equality _ _ _) (by decide)
    second14_reach (readers_outline callsP (fits_polymorphic14 _)) (readers_begin ⟨(1, 1008), by decide, rfl⟩ fun _ => rfl) hr
  have := h i
  rw [hv] at this
  exact this.2.2

/-- The threads 0, 1 and 2 take turns, `n` times; the allocator hands out address `200 + i` to thread `i`. -/
def threeTurns (n : Nat) : List (Nat × Env) := (List.replicate n [(0, fine 200), (1, fine 201), (2, fine 202)]).flatten

/-- Where threads 0, 1 and 2 are. -/
def placesOf {L A R B Op O : Type} : LOutcome (LSys Nat Unit Step L A R B Op O) → List Step
  | .running c => [c.place 0, c.place 1, c.place 2]
  | _ => []

/-- Both readers read what the writer wrote, while it writes again. -/
example : placesOf (LSys.exec (Fine.either (Fine.Indirect.step (alloc false false false) (Fine.plain Demo.T))
    (Fine.Indirect.query throwingCmp)) (readersWriters callsI) (threeTurns 32) (LSys.start s0 readersStart)) =
    [.second, .got 10, .got 10] := by decide +kernel

/-- Readers that do not lock the mutex. -/
def careless {Op V : Type} (W : Calls Op V) (i : Nat) : Step → Todo Unit Op (Out Nat Nat V) Step
  | .read => readersWriters W i .reading
  | .copied => readersWriters W i .have
  | k => readersWriters W i k

/-- Some thread has read an odd number. -/
def oddRead {L A R B Op O : Type} : LOutcome (LSys Nat Unit Step L A R B Op O) → Bool
  | .running c => match c.place 1 with
    | .got v => v % 2 == 1
    | _ => false
  | _ => false

/-- If readers do not lock the mutex, a reader can see the state between the two writes. -/
theorem C78_locks_matter : ∃ sched : List (Nat × Env), ∃ c,
    LSys.exec (Fine.either (Fine.Indirect.step (alloc false false false) (Fine.plain Demo.T)) (Fine.Indirect.query throwingCmp))
      (careless callsI) sched (LSys.start s0 readersStart) = .running c ∧ ∃ v, c.place 1 = .got v ∧ v % 2 = 1 := by
  have h : oddRead (LSys.exec (Fine.either (Fine.Indirect.step (alloc false false false) (Fine.plain Demo.T))
      (Fine.Indirect.query throwingCmp)) (careless callsI) (List.replicate 8 (0, fine 0) ++ List.replicate 20 (1, fine 201))
      (LSys.start s0 readersStart)) = true := by decide +kernel
  refine ⟨List.replicate 8 (0, fine 0) ++ List.replicate 20 (1, fine 201), ?_⟩
  revert h
  cases LSys.exec (Fine.either (Fine.Indirect.step (alloc false false false) (Fine.plain Demo.T))
      (Fine.Indirect.query throwingCmp)) (careless callsI) (List.replicate 8 (0, fine 0) ++ List.replicate 20 (1, fine 201))
      (LSys.start s0 readersStart) with
  | running c =>
    intro h
    refine ⟨c, rfl, ?_⟩
    simp only [oddRead] at h
    split at h
    · rename_i v hv; exact ⟨v, hv, by simpa using h⟩
    · cases h
  | _ => intro h; cases h

end

end Verif.Props
