import Verif.Proofs.Query
import Verif.Props.Concurrent14

/-!
# C68: threads that compare and hash

As C66 (`Props/Concurrent.lean`), with the operators and the hash of indirect.h and indirect_cxx14.h among the calls.
-/

set_option autoImplicit false
set_option linter.unusedSectionVars false
set_option linter.unusedSimpArgs false

namespace Verif.Props
open Verif

section
variable {L A R V X Th : Type} [DecidableEq L] [DecidableEq R] [DecidableEq Th]
open Indirect
variable {tr : ATraits A R} {T : TSpec V X} {C : TCmp V} {s : St L A R (Obj V)} {owner : L → Option Th}
  {next : Th → List (Seen (Out L A V)) → Option (Either (Op L A V X) (Query L V))} {sched : List (Th × Env)}
  {c : Conf Th L A R (Obj V) (Out L A V)}

/-- indirect.h: no interleaving of such threads has undefined behaviour. -/
theorem C68_no_undefined_behaviour (S : tr.Sound) (h : Indirect.Reach tr T s)
    (hF : ∀ i, Spec.Fair (Spec.estep tr T C) (Spec.ELegal tr) Spec.eoperands (Spec.echanges Spec.changes)
      owner next (abs s) i) (u : UB) :
    Conf.exec (Fine.either (Fine.Indirect.step tr (Fine.plain T)) (Fine.Indirect.query C)) next sched (Conf.start s) ≠ .ub u :=
  Conc.no_ub (api := Conc.queried tr T C S) (h.inv S) hF sched u

/-- indirect.h: there is never a data race. -/
theorem C68_no_data_race (S : tr.Sound) (h : Indirect.Reach tr T s)
    (hF : ∀ i, Spec.Fair (Spec.estep tr T C) (Spec.ELegal tr) Spec.eoperands (Spec.echanges Spec.changes)
      owner next (abs s) i)
    (hr : Conf.exec (Fine.either (Fine.Indirect.step tr (Fine.plain T)) (Fine.Indirect.query C)) next sched (Conf.start s) =
      .running c) : ¬ Spec.Race c :=
  Conc.no_race (api := Conc.queried tr T C S) (h.inv S) hF hr

/-- indirect.h: every thread has seen of its calls, comparisons and hashes what it can see if it is alone; and when it is between two of
them, the objects that it uses have the values that they have then. -/
theorem C68_threads_run_as_if_alone (S : tr.Sound) (h : Indirect.Reach tr T s)
    (hF : ∀ i, Spec.Fair (Spec.estep tr T C) (Spec.ELegal tr) Spec.eoperands (Spec.echanges Spec.changes)
      owner next (abs s) i)
    (hr : Conf.exec (Fine.either (Fine.Indirect.step tr (Fine.plain T)) (Fine.Indirect.query C)) next sched (Conf.start s) =
      .running c) (i : Th) :
    ∃ τ, Spec.Alone (Spec.estep tr T C) (next i) (abs s) (c.th i).log τ ∧
      ((c.th i).cur = none → ∀ z, Spec.Uses owner i z → abs (c.view i) z = τ z) :=
  Conc.as_alone (api := Conc.queried tr T C S) (h.inv S) hF hr i

/-- indirect.h: objects that are shared keep their values and allocators all the time. -/
theorem C68_shared_objects_stay (S : tr.Sound) (h : Indirect.Reach tr T s)
    (hF : ∀ i, Spec.Fair (Spec.estep tr T C) (Spec.ELegal tr) Spec.eoperands (Spec.echanges Spec.changes)
      owner next (abs s) i)
    (hr : Conf.exec (Fine.either (Fine.Indirect.step tr (Fine.plain T)) (Fine.Indirect.query C)) next sched (Conf.start s) =
      .running c) (i : Th) {z : L} (hz : owner z = none) : abs (c.view i) z = abs s z :=
  Conc.shared_same (api := Conc.queried tr T C S) (h.inv S) hF hr i hz

/-- indirect.h: the program is ended by `std::terminate` only if one of the threads can end that way alone. -/
theorem C68_terminates_only_as_alone (S : tr.Sound) (h : Indirect.Reach tr T s)
    (hF : ∀ i, Spec.Fair (Spec.estep tr T C) (Spec.ELegal tr) Spec.eoperands (Spec.echanges Spec.changes)
      owner next (abs s) i)
    (hr : Conf.exec (Fine.either (Fine.Indirect.step tr (Fine.plain T)) (Fine.Indirect.query C)) next sched (Conf.start s) =
      .terminated) :
    ∃ i log τ o mem f, Spec.Alone (Spec.estep tr T C) (next i) (abs s) log τ ∧ next i log = some o ∧
      Spec.estep tr T C mem f τ o = .terminated :=
  Conc.terminated_alone (api := Conc.queried tr T C S) (h.inv S) hF hr

/-- indirect.h: when all threads are between two calls, every block of storage is owned by exactly one object. -/
theorem C68_nothing_leaks (S : tr.Sound) (h : Indirect.Reach tr T s)
    (hF : ∀ i, Spec.Fair (Spec.estep tr T C) (Spec.ELegal tr) Spec.eoperands (Spec.echanges Spec.changes)
      owner next (abs s) i)
    (hr : Conf.exec (Fine.either (Fine.Indirect.step tr (Fine.plain T)) (Fine.Indirect.query C)) next sched (Conf.start s) =
      .running c) (hidle : ∀ i, (c.th i).cur = none) :
    (∀ p k, c.heap p = some k → ∃ z h, c.hs z = some h ∧ h.p = some p) ∧
    (∀ z h p, c.hs z = some h → h.p = some p → c.heap p ≠ none) ∧
    ∀ z z' h h' p, c.hs z = some h → c.hs z' = some h' → h.p = some p → h'.p = some p → z = z' :=
  Conc.owned_once (api := Conc.queried tr T C S) (h.inv S) hF hr hidle

/-- indirect.h: calls, comparisons and hashes are wait-free. -/
theorem C68_wait_free {c' : Conf Th L A R (Obj V) (Out L A V)}
    (hr : Conf.exec (Fine.either (Fine.Indirect.step tr (Fine.plain T)) (Fine.Indirect.query C)) next sched c = .running c')
    (i : Th) (hi : (c.th i).cur = none) (hn : next i (c.th i).log ≠ none) (ht : 42 ≤ Spec.turns i sched) :
    (c.th i).log.length < (c'.th i).log.length :=
  Conf.exec_progress (Conc.am_queried tr T C) hr hi hn ht

/-- indirect.h: without interruption the steps of a comparison or hash do what it does in the rest of the model. -/
theorem C68_uninterrupted (q : Query L V) (e : Env) :
    Prog.interp (Fine.Indirect.query C q) (s.enter e) = Indirect.query C q (s.enter e) := by
  rw [Fine.interp_query]

/-- indirect.h: any number of threads compare and hash objects, all of which may be shared.  Then there is no undefined behaviour and
no data race, the program is not terminated, no object changes, and every thread gets right answers. -/
theorem C68_readers (S : tr.Sound) (h : Indirect.Reach tr T s) {ask : Th → List (Seen (Out L A V)) → Option (Query L V)}
    (hL : ∀ i log q, ask i log = some q → Spec.AllLive (abs s) (Spec.qoperands q)) :
    ∃ c, Conf.exec (Fine.either (Fine.Indirect.step tr (Fine.plain T)) (Fine.Indirect.query C))
        (fun i log => (ask i log).map .query) sched (Conf.start s) = .running c ∧ ¬ Spec.Race c ∧
      ∀ i, Spec.Answered (Spec.qstep C) (ask i) (abs s) (c.th i).log ∧ abs (c.view i) = abs s := by
  have hal : ∀ i log τ, Spec.Alone (Spec.estep tr T C) (fun l => (ask i l).map .query) (abs s) log τ →
      τ = abs s ∧ Spec.Answered (Spec.qstep C) (ask i) (abs s) log := fun i log τ h =>
    Conc.alone_readers (fun _ _ _ _ => rfl) (fun f σ q => (Conc.reads_qstep C f σ q).1) h
  have hF : ∀ i, Spec.Fair (Spec.estep tr T C) (Spec.ELegal tr) Spec.eoperands (Spec.echanges Spec.changes)
      (fun _ => (none : Option Th)) (fun i log => (ask i log).map .query) (abs s) i := by
    intro i log τ o ha hn
    obtain ⟨q, hq, rfl⟩ := Option.map_eq_some_iff.1 hn
    obtain ⟨rfl, -⟩ := hal i log τ ha
    exact ⟨hL i log q hq, fun z _ => .inr ⟨rfl, nofun⟩⟩
  cases hr : Conf.exec (Fine.either (Fine.Indirect.step tr (Fine.plain T)) (Fine.Indirect.query C))
      (fun i log => (ask i log).map .query) sched (Conf.start s) with
  | running c =>
    refine ⟨c, rfl, C68_no_data_race S h hF hr, fun i => ⟨?_, ?_⟩⟩
    · obtain ⟨τ, ha, -⟩ := C68_threads_run_as_if_alone S h hF hr i
      exact (hal i _ τ ha).2
    · funext z
      exact C68_shared_objects_stay S h hF hr i rfl
  | ub u => exact absurd hr (C68_no_undefined_behaviour S h hF u)
  | terminated =>
    obtain ⟨i, log, τ, o, mem, f, -, hn, hc⟩ := C68_terminates_only_as_alone S h hF hr
    obtain ⟨q, hq, rfl⟩ := Option.map_eq_some_iff.1 hn
    exact absurd hc (Conc.reads_qstep C f τ q).2

end

section
variable {L A R V X Th : Type} [DecidableEq L] [DecidableEq R] [DecidableEq Th]
open Indirect
variable {tr : ATraits A R} {T : TSpec V X} {C : TCmp V} {s : St L A R (Obj V)} {owner : L → Option Th}
  {next : Th → List (Seen (Out L A V)) → Option (Either (Op L A V X) (Query14 L V))} {sched : List (Th × Env)}
  {c : Conf Th L A R (Obj V) (Out L A V)}

/-- indirect_cxx14.h: no interleaving of such threads has undefined behaviour. -/
theorem C68_cxx14_no_undefined_behaviour (S : tr.Sound) (h : Indirect14.Reach tr T s)
    (hF : ∀ i, Spec.Fair (Spec.estep14 tr T C) (Spec.ELegal14 tr) Spec.eoperands14 (Spec.echanges Spec.changes)
      owner next (abs s) i) (u : UB) :
    Conf.exec (Fine.either (Fine.Indirect14.step tr (Fine.plain T)) (Fine.Indirect14.query C)) next sched (Conf.start s) ≠ .ub u :=
  Conc.no_ub (api := Conc.queried14 tr T C S) (((Indirect14.reach_iff tr T s).1 h).inv S) hF sched u

/-- indirect_cxx14.h: there is never a data race. -/
theorem C68_cxx14_no_data_race (S : tr.Sound) (h : Indirect14.Reach tr T s)
    (hF : ∀ i, Spec.Fair (Spec.estep14 tr T C) (Spec.ELegal14 tr) Spec.eoperands14 (Spec.echanges Spec.changes)
      owner next (abs s) i)
    (hr : Conf.exec (Fine.either (Fine.Indirect14.step tr (Fine.plain T)) (Fine.Indirect14.query C)) next sched (Conf.start s) =
      .running c) : ¬ Spec.Race c :=
  Conc.no_race (api := Conc.queried14 tr T C S) (((Indirect14.reach_iff tr T s).1 h).inv S) hF hr

/-- indirect_cxx14.h: every thread has seen of its calls, comparisons and hashes what it can see if it is alone; and when it is between two of
them, the objects that it uses have the values that they have then. -/
theorem C68_cxx14_threads_run_as_if_alone (S : tr.Sound) (h : Indirect14.Reach tr T s)
    (hF : ∀ i, Spec.Fair (Spec.estep14 tr T C) (Spec.ELegal14 tr) Spec.eoperands14 (Spec.echanges Spec.changes)
      owner next (abs s) i)
    (hr : Conf.exec (Fine.either (Fine.Indirect14.step tr (Fine.plain T)) (Fine.Indirect14.query C)) next sched (Conf.start s) =
      .running c) (i : Th) :
    ∃ τ, Spec.Alone (Spec.estep14 tr T C) (next i) (abs s) (c.th i).log τ ∧
      ((c.th i).cur = none → ∀ z, Spec.Uses owner i z → abs (c.view i) z = τ z) :=
  Conc.as_alone (api := Conc.queried14 tr T C S) (((Indirect14.reach_iff tr T s).1 h).inv S) hF hr i

/-- indirect_cxx14.h: objects that are shared keep their values and allocators all the time. -/
theorem C68_cxx14_shared_objects_stay (S : tr.Sound) (h : Indirect14.Reach tr T s)
    (hF : ∀ i, Spec.Fair (Spec.estep14 tr T C) (Spec.ELegal14 tr) Spec.eoperands14 (Spec.echanges Spec.changes)
      owner next (abs s) i)
    (hr : Conf.exec (Fine.either (Fine.Indirect14.step tr (Fine.plain T)) (Fine.Indirect14.query C)) next sched (Conf.start s) =
      .running c) (i : Th) {z : L} (hz : owner z = none) : abs (c.view i) z = abs s z :=
  Conc.shared_same (api := Conc.queried14 tr T C S) (((Indirect14.reach_iff tr T s).1 h).inv S) hF hr i hz

/-- indirect_cxx14.h: the program is ended by `std::terminate` only if one of the threads can end that way alone. -/
theorem C68_cxx14_terminates_only_as_alone (S : tr.Sound) (h : Indirect14.Reach tr T s)
    (hF : ∀ i, Spec.Fair (Spec.estep14 tr T C) (Spec.ELegal14 tr) Spec.eoperands14 (Spec.echanges Spec.changes)
      owner next (abs s) i)
    (hr : Conf.exec (Fine.either (Fine.Indirect14.step tr (Fine.plain T)) (Fine.Indirect14.query C)) next sched (Conf.start s) =
      .terminated) :
    ∃ i log τ o mem f, Spec.Alone (Spec.estep14 tr T C) (next i) (abs s) log τ ∧ next i log = some o ∧
      Spec.estep14 tr T C mem f τ o = .terminated :=
  Conc.terminated_alone (api := Conc.queried14 tr T C S) (((Indirect14.reach_iff tr T s).1 h).inv S) hF hr

/-- indirect_cxx14.h: when all threads are between two calls, every block of storage is owned by exactly one object. -/
theorem C68_cxx14_nothing_leaks (S : tr.Sound) (h : Indirect14.Reach tr T s)
    (hF : ∀ i, Spec.Fair (Spec.estep14 tr T C) (Spec.ELegal14 tr) Spec.eoperands14 (Spec.echanges Spec.changes)
      owner next (abs s) i)
    (hr : Conf.exec (Fine.either (Fine.Indirect14.step tr (Fine.plain T)) (Fine.Indirect14.query C)) next sched (Conf.start s) =
      .running c) (hidle : ∀ i, (c.th i).cur = none) :
    (∀ p k, c.heap p = some k → ∃ z h, c.hs z = some h ∧ h.p = some p) ∧
    (∀ z h p, c.hs z = some h → h.p = some p → c.heap p ≠ none) ∧
    ∀ z z' h h' p, c.hs z = some h → c.hs z' = some h' → h.p = some p → h'.p = some p → z = z' :=
  Conc.owned_once (api := Conc.queried14 tr T C S) (((Indirect14.reach_iff tr T s).1 h).inv S) hF hr hidle

/-- indirect_cxx14.h: calls, comparisons and hashes are wait-free. -/
theorem C68_cxx14_wait_free {c' : Conf Th L A R (Obj V) (Out L A V)}
    (hr : Conf.exec (Fine.either (Fine.Indirect14.step tr (Fine.plain T)) (Fine.Indirect14.query C)) next sched c = .running c')
    (i : Th) (hi : (c.th i).cur = none) (hn : next i (c.th i).log ≠ none) (ht : 42 ≤ Spec.turns i sched) :
    (c.th i).log.length < (c'.th i).log.length :=
  Conf.exec_progress (Conc.am_queried14 tr T C) hr hi hn ht

/-- indirect_cxx14.h: without interruption the steps of a comparison or hash do what it does in the rest of the model. -/
theorem C68_cxx14_uninterrupted (q : Query14 L V) (e : Env) :
    Prog.interp (Fine.Indirect14.query C q) (s.enter e) = Indirect14.query C q (s.enter e) := by
  rw [Fine.interp_query14]

/-- indirect_cxx14.h: any number of threads compare and hash objects, all of which may be shared.  Then there is no undefined behaviour and
no data race, the program is not terminated, no object changes, and every thread gets right answers. -/
theorem C68_cxx14_readers (S : tr.Sound) (h : Indirect14.Reach tr T s) {ask : Th → List (Seen (Out L A V)) → Option (Query14 L V)}
    (hL : ∀ i log q, ask i log = some q → Spec.AllLive (abs s) (Spec.qoperands14 q)) :
    ∃ c, Conf.exec (Fine.either (Fine.Indirect14.step tr (Fine.plain T)) (Fine.Indirect14.query C))
        (fun i log => (ask i log).map .query) sched (Conf.start s) = .running c ∧ ¬ Spec.Race c ∧
      ∀ i, Spec.Answered (Spec.qstep14 C) (ask i) (abs s) (c.th i).log ∧ abs (c.view i) = abs s := by
  have hal : ∀ i log τ, Spec.Alone (Spec.estep14 tr T C) (fun l => (ask i l).map .query) (abs s) log τ →
      τ = abs s ∧ Spec.Answered (Spec.qstep14 C) (ask i) (abs s) log := fun i log τ h =>
    Conc.alone_readers (fun _ _ _ _ => rfl) (fun f σ q => (Conc.reads_qstep14 C f σ q).1) h
  have hF : ∀ i, Spec.Fair (Spec.estep14 tr T C) (Spec.ELegal14 tr) Spec.eoperands14 (Spec.echanges Spec.changes)
      (fun _ => (none : Option Th)) (fun i log => (ask i log).map .query) (abs s) i := by
    intro i log τ o ha hn
    obtain ⟨q, hq, rfl⟩ := Option.map_eq_some_iff.1 hn
    obtain ⟨rfl, -⟩ := hal i log τ ha
    exact ⟨hL i log q hq, fun z _ => .inr ⟨rfl, nofun⟩⟩
  cases hr : Conf.exec (Fine.either (Fine.Indirect14.step tr (Fine.plain T)) (Fine.Indirect14.query C))
      (fun i log => (ask i log).map .query) sched (Conf.start s) with
  | running c =>
    refine ⟨c, rfl, C68_cxx14_no_data_race S h hF hr, fun i => ⟨?_, ?_⟩⟩
    · obtain ⟨τ, ha, -⟩ := C68_cxx14_threads_run_as_if_alone S h hF hr i
      exact (hal i _ τ ha).2
    · funext z
      exact C68_cxx14_shared_objects_stay S h hF hr i rfl
  | ub u => exact absurd hr (C68_cxx14_no_undefined_behaviour S h hF u)
  | terminated =>
    obtain ⟨i, log, τ, o, mem, f, -, hn, hc⟩ := C68_cxx14_terminates_only_as_alone S h hF hr
    obtain ⟨q, hq, rfl⟩ := Option.map_eq_some_iff.1 hn
    exact absurd hc (Conc.reads_qstep14 C f τ q).2

end

/-! ### Examples -/

section
open Demo

/-- Numbers; the environment can make comparisons and the hash throw.  There is no `<=>`. -/
def throwingCmp : TCmp Nat where
  threeWay := none
  eq v w n := if n = 13 then .error (.user 3) else .ok (v == w)
  ne v w n := if n = 13 then .error (.user 3) else .ok (v != w)
  lt v w n := if n = 13 then .error (.user 3) else .ok (decide (v < w))
  gt v w n := if n = 13 then .error (.user 3) else .ok (decide (w < v))
  le v w n := if n = 13 then .error (.user 3) else .ok (decide (v ≤ w))
  ge v w n := if n = 13 then .error (.user 3) else .ok (decide (w ≤ v))
  hash v n := if n = 13 then .error (.user 3) else .ok (v * 31)
  npos := 999

/-- Copy object 1, compare the copy with it, destroy the copy; stop at an exception. -/
def askNext (b : Bool) : List (Seen (Out Nat Nat Nat)) → Option (Either (Op Nat Nat Nat Nat) (Query Nat Nat))
  | [] => some (.call (.copy (mine b) 1))
  | [.ret _] => some (.query (.cmp (mine b) 1))
  | [.ret _, .ret _] => some (.call (.destroy (mine b)))
  | _ => none

/-- What such a thread does alone. -/
theorem ask_alone {b : Bool} {σ : Spec.Boxes Nat Nat Nat} (h1 : σ 1 = some ⟨5, some 7⟩)
    {log : List (Seen (Out Nat Nat Nat))} {τ : Spec.Boxes Nat Nat Nat}
    (h : Spec.Alone (Spec.estep (alloc false false false) Demo.T throwingCmp) (askNext b) σ log τ) :
    log = [] ∧ τ = σ ∨ (∃ x, log = [.exn x]) ∨
      (∃ o, log = [.ret o] ∧ τ = Spec.put σ (mine b) ⟨5, some 7⟩) ∨
      (∃ o x, log = [.ret o, .exn x]) ∨
      (∃ o o', log = [.ret o, .ret o'] ∧ τ = Spec.put σ (mine b) ⟨5, some 7⟩) ∨ 3 ≤ log.length := by
  induction h with
  | start => exact .inl ⟨rfl, rfl⟩
  | @ret log τ τ' out o mem n h hn hc ih =>
    rcases ih with ⟨rfl, rfl⟩ | ⟨x, rfl⟩ | ⟨o1, rfl, rfl⟩ | ⟨o1, x, rfl⟩ | ⟨o1, o2, rfl, rfl⟩ | hl
    · cases hn
      simp only [Spec.estep, Spec.step, h1, Spec.copyA, Spec.store, Spec.build, Demo.T, alloc] at hc
      refine .inr (.inr (.inl ⟨out, rfl, ?_⟩))
      cases mem
      · cases hc
      · by_cases hn : n 0 = 13
        · simp [hn] at hc
        · simp only [hn, if_true, if_false] at hc
          cases hc; rfl
    · cases hn
    · cases hn
      simp only [Spec.estep] at hc
      obtain rfl := (Conc.reads_qstep throwingCmp n _ _).1.1 _ _ hc
      exact .inr (.inr (.inr (.inr (.inl ⟨_, _, rfl, rfl⟩))))
    · cases hn
    · right; right; right; right; right; simp
    · right; right; right; right; right; simp; omega
  | @threw log τ τ' x o mem n h hn hc ih =>
    rcases ih with ⟨rfl, rfl⟩ | ⟨x', rfl⟩ | ⟨o1, rfl, rfl⟩ | ⟨o1, x', rfl⟩ | ⟨o1, o2, rfl, rfl⟩ | hl
    · exact .inr (.inl ⟨x, rfl⟩)
    · cases hn
    · exact .inr (.inr (.inr (.inl ⟨_, _, rfl⟩)))
    · cases hn
    · right; right; right; right; right; simp
    · right; right; right; right; right; simp; omega

/-- The hypothesis of the theorems above holds of these threads. -/
theorem ask_fair (b : Bool) : Spec.Fair (Spec.estep (alloc false false false) Demo.T throwingCmp)
    (Spec.ELegal (alloc false false false)) Spec.eoperands (Spec.echanges Spec.changes) bothOwner askNext
    (Indirect.abs (st false false false)) b := by
  intro log τ o h hn
  have h1 : Indirect.abs (st false false false) 1 = some ⟨5, some 7⟩ := by decide
  have h2 : Indirect.abs (st false false false) (mine b) = none := by cases b <;> decide
  have ho : bothOwner (mine b) = some b := by cases b <;> rfl
  have hne : (1 : Nat) ≠ mine b := by cases b <;> decide
  rcases ask_alone h1 h with ⟨rfl, rfl⟩ | ⟨x, rfl⟩ | ⟨o1, rfl, rfl⟩ | ⟨o1, x, rfl⟩ | ⟨o1, o2, rfl, rfl⟩ | hl
  · cases hn
    refine ⟨⟨h2, _, h1⟩, ?_⟩
    intro z hz
    rcases List.mem_cons.1 hz with rfl | hz
    · exact .inl ho
    · rcases List.mem_cons.1 hz with rfl | hz
      · refine .inr ⟨rfl, ?_⟩
        cases b <;> decide
      · cases hz
  · cases hn
  · cases hn
    refine ⟨?_, ?_⟩
    · intro z hz
      rcases List.mem_cons.1 hz with rfl | hz
      · exact ⟨⟨5, some 7⟩, by simp [Spec.put]⟩
      · rcases List.mem_cons.1 hz with rfl | hz
        · exact ⟨⟨5, some 7⟩, by simp [Spec.put, hne, h1]⟩
        · cases hz
    · intro z hz
      rcases List.mem_cons.1 hz with rfl | hz
      · exact .inl ho
      · rcases List.mem_cons.1 hz with rfl | hz
        · exact .inr ⟨rfl, nofun⟩
        · cases hz
  · cases hn
  · cases hn
    refine ⟨⟨⟨5, some 7⟩, by simp [Spec.put]⟩, ?_⟩
    intro z hz
    rcases List.mem_cons.1 hz with rfl | hz
    · exact .inl ho
    · cases hz
  · exfalso
    revert hn hl
    rcases log with _ | ⟨a, _ | ⟨b', _ | ⟨d, log⟩⟩⟩ <;> simp
    · cases a <;> cases b' <;> simp [askNext]

/-- Two threads that take turns, access by access, both find that their copies are equivalent to the original. -/
example : Indirect.Reach (alloc false false false) Demo.T (st false false false) ∧
    (∀ b, Spec.Fair (Spec.estep (alloc false false false) Demo.T throwingCmp) (Spec.ELegal (alloc false false false))
      Spec.eoperands (Spec.echanges Spec.changes) bothOwner askNext (Indirect.abs (st false false false)) b) ∧
    seen (Conf.exec (Fine.either (Fine.Indirect.step (alloc false false false) (Fine.plain Demo.T))
      (Fine.Indirect.query throwingCmp)) askNext (inTurns 40) (Conf.start (st false false false))) =
    [[.ret .unit, .ret (.ordering .equivalent), .ret .unit], [.ret .unit, .ret (.ordering .equivalent), .ret .unit]] :=
  ⟨st_reach _ _ _, ask_fair, by decide +kernel⟩

/-- Thread `true` compares and hashes objects 1 (value 7), 3 (value 9) and 4 (valueless), thread `false` the same in another
order. -/
def readNext (b : Bool) (log : List (Seen (Out Nat Nat Nat))) : Option (Query Nat Nat) :=
  let all : List (Query Nat Nat) := [.eq 1 3, .cmp 1 3, .cmp 4 1, .eq 4 4, .eqU 3 9, .cmpU 4 2, .hash 4, .hash 1]
  (if b then all else all.reverse)[log.length]?

example : Indirect.Reach (alloc false false false) Demo.T (st false false false) ∧
    (∀ b log q, readNext b log = some q → Spec.AllLive (Indirect.abs (st false false false)) (Spec.qoperands q)) ∧
    seen (Conf.exec (Fine.either (Fine.Indirect.step (alloc false false false) (Fine.plain Demo.T))
      (Fine.Indirect.query throwingCmp)) (fun b log => (readNext b log).map .query) (inTurns 60)
      (Conf.start (st false false false))) =
    [[.ret (.bool false), .ret (.ordering .less), .ret (.ordering .less), .ret (.bool true), .ret (.bool true),
        .ret (.ordering .less), .ret (.hash 999), .ret (.hash 217)],
      [.ret (.hash 217), .ret (.hash 999), .ret (.ordering .less), .ret (.bool true), .ret (.bool true),
        .ret (.ordering .less), .ret (.ordering .less), .ret (.bool false)]] := by
  refine ⟨st_reach _ _ _, ?_, by decide +kernel⟩
  intro b log q h z hz
  have hl : ∀ z : Nat, z = 1 ∨ z = 3 ∨ z = 4 → Spec.Live (Indirect.abs (st false false false)) z := by
    rintro z (rfl | rfl | rfl)
    · exact ⟨⟨5, some 7⟩, by decide⟩
    · exact ⟨⟨6, some 9⟩, by decide⟩
    · exact ⟨⟨6, none⟩, by decide⟩
  apply hl
  have hm : q ∈ [Query.eq 1 3, .cmp 1 3, .cmp 4 1, .eq 4 4, .eqU 3 9, .cmpU 4 2, .hash 4, .hash 1] := by
    have := List.mem_of_getElem? h
    cases b
    · exact List.mem_reverse.1 this
    · exact this
  simp only [List.mem_cons, List.not_mem_nil, or_false] at hm
  rcases hm with rfl | rfl | rfl | rfl | rfl | rfl | rfl | rfl <;>
    simp only [Spec.qoperands, List.mem_cons, List.not_mem_nil, or_false] at hz <;> omega

/-- The same with indirect_cxx14.h. -/
def readNext14 (b : Bool) (log : List (Seen (Out Nat Nat Nat))) : Option (Query14 Nat Nat) :=
  let all : List (Query14 Nat Nat) := [.rel .eq 1 3, .rel .lt 1 3, .rel .lt 4 1, .rel .ge 4 4, .relIU .eq 3 9, .relUI .gt 2 4,
    .hash 4, .hash 1]
  (if b then all else all.reverse)[log.length]?

example : Indirect14.Reach (alloc false false false) Demo.T (st false false false) ∧
    (∀ b log q, readNext14 b log = some q → Spec.AllLive (Indirect.abs (st false false false)) (Spec.qoperands14 q)) ∧
    seen (Conf.exec (Fine.either (Fine.Indirect14.step (alloc false false false) (Fine.plain Demo.T))
      (Fine.Indirect14.query throwingCmp)) (fun b log => (readNext14 b log).map .query) (inTurns 60)
      (Conf.start (st false false false))) =
    [[.ret (.bool false), .ret (.bool true), .ret (.bool true), .ret (.bool true), .ret (.bool true),
        .ret (.bool true), .ret (.hash 999), .ret (.hash 217)],
      [.ret (.hash 217), .ret (.hash 999), .ret (.bool true), .ret (.bool true), .ret (.bool true),
        .ret (.bool true), .ret (.bool true), .ret (.bool false)]] := by
  refine ⟨(Indirect14.reach_iff _ Demo.T _).2 (st_reach _ _ _), ?_, by decide +kernel⟩
  intro b log q h z hz
  have hl : ∀ z : Nat, z = 1 ∨ z = 3 ∨ z = 4 → Spec.Live (Indirect.abs (st false false false)) z := by
    rintro z (rfl | rfl | rfl)
    · exact ⟨⟨5, some 7⟩, by decide⟩
    · exact ⟨⟨6, some 9⟩, by decide⟩
    · exact ⟨⟨6, none⟩, by decide⟩
  apply hl
  have hm : q ∈ [Query14.rel .eq 1 3, .rel .lt 1 3, .rel .lt 4 1, .rel .ge 4 4, .relIU .eq 3 9, .relUI .gt 2 4, .hash 4,
      .hash 1] := by
    have := List.mem_of_getElem? h
    cases b
    · exact List.mem_reverse.1 this
    · exact this
  simp only [List.mem_cons, List.not_mem_nil, or_false] at hm
  rcases hm with rfl | rfl | rfl | rfl | rfl | rfl | rfl | rfl <;>
    simp only [Spec.qoperands14, List.mem_cons, List.not_mem_nil, or_false] at hz <;> omega

end
end Verif.Props
