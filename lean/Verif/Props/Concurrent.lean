import Verif.Proofs.ConcurrentApi
import Verif.Proofs.Progress
import Verif.PDemo

/-!
# C66: threads inside calls

In `Props/Threads.lean` calls are atomic.  Here every access to memory is a step of its own, and `sched` is any interleaving
of the steps of all threads (with what the environment decides for the call that begins there).  `next i log` is the call
that thread `i` makes when it has seen `log` of its calls so far; `owner z` is the thread that uses object `z`, or `none` if
all threads use `z` (and none changes it).
-/

set_option autoImplicit false
set_option linter.unusedSectionVars false
set_option linter.unusedSimpArgs false

namespace Verif.Props
open Verif

section
variable {L A R V X Th : Type} [DecidableEq L] [DecidableEq R] [DecidableEq Th]
open Indirect
variable {tr : ATraits A R} {T : TSpec V X} {s : St L A R (Obj V)} {owner : L → Option Th}
  {next : Th → List (Seen (Out L A V)) → Option (Op L A V X)} {sched : List (Th × Env)}
  {c : Conf Th L A R (Obj V) (Out L A V)}

/-- No interleaving of such threads has undefined behaviour: in particular no object is used before or after its lifetime,
no storage is used after it has been released, or released twice, or to the wrong memory resource. -/
theorem C66_no_undefined_behaviour (S : tr.Sound) (h : Reach tr T s)
    (hF : ∀ i, Spec.Fair (Spec.step tr T) (Spec.Legal tr) Spec.operands Spec.changes owner next (abs s) i) (u : UB) :
    Conf.exec (Fine.Indirect.step tr (Fine.plain T)) next sched (Conf.start s) ≠ .ub u :=
  Conc.no_ub (api := Conc.indirect tr T S) (h.inv S) hF sched u

/-- There is never a data race. -/
theorem C66_no_data_race (S : tr.Sound) (h : Reach tr T s)
    (hF : ∀ i, Spec.Fair (Spec.step tr T) (Spec.Legal tr) Spec.operands Spec.changes owner next (abs s) i)
    (hr : Conf.exec (Fine.Indirect.step tr (Fine.plain T)) next sched (Conf.start s) = .running c) : ¬ Spec.Race c :=
  Conc.no_race (api := Conc.indirect tr T S) (h.inv S) hF hr

/-- Every thread has seen of its calls what it can see if it is alone; and when it is between two calls, the objects that it
uses have the values that they have then. -/
theorem C66_threads_run_as_if_alone (S : tr.Sound) (h : Reach tr T s)
    (hF : ∀ i, Spec.Fair (Spec.step tr T) (Spec.Legal tr) Spec.operands Spec.changes owner next (abs s) i)
    (hr : Conf.exec (Fine.Indirect.step tr (Fine.plain T)) next sched (Conf.start s) = .running c) (i : Th) :
    ∃ τ, Spec.Alone (Spec.step tr T) (next i) (abs s) (c.th i).log τ ∧
      ((c.th i).cur = none → ∀ z, Spec.Uses owner i z → abs (c.view i) z = τ z) :=
  Conc.as_alone (api := Conc.indirect tr T S) (h.inv S) hF hr i

/-- Objects that are shared keep their values and allocators all the time. -/
theorem C66_shared_objects_stay (S : tr.Sound) (h : Reach tr T s)
    (hF : ∀ i, Spec.Fair (Spec.step tr T) (Spec.Legal tr) Spec.operands Spec.changes owner next (abs s) i)
    (hr : Conf.exec (Fine.Indirect.step tr (Fine.plain T)) next sched (Conf.start s) = .running c) (i : Th) {z : L}
    (hz : owner z = none) : abs (c.view i) z = abs s z :=
  Conc.shared_same (api := Conc.indirect tr T S) (h.inv S) hF hr i hz

/-- The program is ended by `std::terminate` only if one of the threads can end that way alone. -/
theorem C66_terminates_only_as_alone (S : tr.Sound) (h : Reach tr T s)
    (hF : ∀ i, Spec.Fair (Spec.step tr T) (Spec.Legal tr) Spec.operands Spec.changes owner next (abs s) i)
    (hr : Conf.exec (Fine.Indirect.step tr (Fine.plain T)) next sched (Conf.start s) = .terminated) :
    ∃ i log τ o mem n, Spec.Alone (Spec.step tr T) (next i) (abs s) log τ ∧ next i log = some o ∧
      Spec.step tr T mem n τ o = .terminated :=
  Conc.terminated_alone (api := Conc.indirect tr T S) (h.inv S) hF hr

/-- When all threads are between two calls, every block of storage is owned by exactly one object; so nothing has leaked. -/
theorem C66_nothing_leaks (S : tr.Sound) (h : Reach tr T s)
    (hF : ∀ i, Spec.Fair (Spec.step tr T) (Spec.Legal tr) Spec.operands Spec.changes owner next (abs s) i)
    (hr : Conf.exec (Fine.Indirect.step tr (Fine.plain T)) next sched (Conf.start s) = .running c)
    (hidle : ∀ i, (c.th i).cur = none) :
    (∀ p k, c.heap p = some k → ∃ z h, c.hs z = some h ∧ h.p = some p) ∧
    (∀ z h p, c.hs z = some h → h.p = some p → c.heap p ≠ none) ∧
    ∀ z z' h h' p, c.hs z = some h → c.hs z' = some h' → h.p = some p → h'.p = some p → z = z' :=
  Conc.owned_once (api := Conc.indirect tr T S) (h.inv S) hF hr hidle

/-- Calls are wait-free: a thread that has a call to make has completed one when it has made 42 steps, whatever the other
threads do (even if they do not respect what is shared), unless the program ended. -/
theorem C66_wait_free {c' : Conf Th L A R (Obj V) (Out L A V)}
    (hr : Conf.exec (Fine.Indirect.step tr (Fine.plain T)) next sched c = .running c') (i : Th) (hi : (c.th i).cur = none)
    (hn : next i (c.th i).log ≠ none) (ht : 42 ≤ Spec.turns i sched) : (c.th i).log.length < (c'.th i).log.length :=
  Conf.exec_progress (Fine.Indirect.am_step tr (Fine.am_plain T)) hr hi hn ht

/-- Without interruption the steps of a call do what the call does in the rest of the model. -/
theorem C66_uninterrupted (o : Op L A V X) (e : Env) :
    Prog.interp (Fine.Indirect.step tr (Fine.plain T) o) (s.enter e) = call tr (plain T) o e s := by
  rw [Fine.Indirect.interp_step tr (Fine.plain_same T)]; rfl

end

/-! ### An example: two threads that copy a shared object, read the copy and destroy it -/

section
open Demo

/-- Thread `true` uses object 10, thread `false` object 11, both use the others. -/
def mine (b : Bool) : Nat := if b then 10 else 11

/-- See `mine`. -/
def bothOwner (z : Nat) : Option Bool := if z = 10 then some true else if z = 11 then some false else none

/-- Copy object 1, read the copy, destroy it; stop at an exception. -/
def bothNext (b : Bool) : List (Seen (Out Nat Nat Nat)) → Option (Op Nat Nat Nat Nat)
  | [] => some (.copy (mine b) 1)
  | [.ret _] => some (.deref (mine b))
  | [.ret _, .ret _] => some (.destroy (mine b))
  | _ => none

/-- What such a thread does alone. -/
theorem both_alone {b : Bool} {σ : Spec.Boxes Nat Nat Nat} (h1 : σ 1 = some ⟨5, some 7⟩)
    {log : List (Seen (Out Nat Nat Nat))} {τ : Spec.Boxes Nat Nat Nat}
    (h : Spec.Alone (Spec.step (alloc false false false) Demo.T) (bothNext b) σ log τ) :
    log = [] ∧ τ = σ ∨ (∃ x, log = [.exn x]) ∨
      (∃ o, log = [.ret o] ∧ τ = Spec.put σ (mine b) ⟨5, some 7⟩) ∨
      (∃ o o', log = [.ret o, .ret o'] ∧ τ = Spec.put σ (mine b) ⟨5, some 7⟩) ∨ 3 ≤ log.length := by
  have hm : ∀ σ' : Spec.Boxes Nat Nat Nat, Spec.put σ' (mine b) ⟨5, some 7⟩ (mine b) = some ⟨5, some 7⟩ := by
    intro; simp [Spec.put]
  induction h with
  | start => exact .inl ⟨rfl, rfl⟩
  | @ret log τ τ' out o mem n h hn hc ih =>
    rcases ih with ⟨rfl, rfl⟩ | ⟨x, rfl⟩ | ⟨o1, rfl, rfl⟩ | ⟨o1, o2, rfl, rfl⟩ | hl
    · cases hn
      simp only [Spec.step, h1, Spec.copyA, Spec.store, Spec.build, Demo.T, alloc] at hc
      refine .inr (.inr (.inl ⟨out, rfl, ?_⟩))
      cases mem
      · cases hc
      · by_cases hn : n = 13
        · simp [hn] at hc
        · simp only [hn, if_true, if_false] at hc
          cases hc; rfl
    · cases hn
    · cases hn
      simp only [Spec.step, Spec.valueOf, hm, Option.bind_some] at hc
      cases hc
      exact .inr (.inr (.inr (.inl ⟨_, _, rfl, rfl⟩)))
    · right; right; right; right; simp
    · right; right; right; right; simp; omega
  | @threw log τ τ' x o mem n h hn hc ih =>
    rcases ih with ⟨rfl, rfl⟩ | ⟨x', rfl⟩ | ⟨o1, rfl, rfl⟩ | ⟨o1, o2, rfl, rfl⟩ | hl
    · exact .inr (.inl ⟨x, rfl⟩)
    · cases hn
    · cases hn
      simp only [Spec.step, Spec.valueOf, hm, Option.bind_some] at hc
      cases hc
    · right; right; right; right; simp
    · right; right; right; right; simp; omega

/-- The hypothesis of the theorems above holds of these threads. -/
theorem both_fair (b : Bool) : Spec.Fair (Spec.step (alloc false false false) Demo.T) (Spec.Legal (alloc false false false))
    Spec.operands Spec.changes bothOwner bothNext (Indirect.abs (st false false false)) b := by
  intro log τ o h hn
  have h1 : Indirect.abs (st false false false) 1 = some ⟨5, some 7⟩ := by decide
  have h2 : Indirect.abs (st false false false) (mine b) = none := by cases b <;> decide
  have ho : bothOwner (mine b) = some b := by cases b <;> rfl
  rcases both_alone h1 h with ⟨rfl, rfl⟩ | ⟨x, rfl⟩ | ⟨o1, rfl, rfl⟩ | ⟨o1, o2, rfl, rfl⟩ | hl
  · cases hn
    refine ⟨⟨h2, _, h1⟩, ?_⟩
    intro z hz
    rcases List.mem_cons.1 hz with rfl | hz
    · exact .inl ho
    · rcases List.mem_cons.1 hz with rfl | hz
      · refine .inr ⟨rfl, ?_⟩
        cases b <;> decide
      · cases hz
  · cases hn
  · cases hn
    refine ⟨⟨7, by simp [Spec.valueOf, Spec.put]⟩, ?_⟩
    intro z hz
    rcases List.mem_cons.1 hz with rfl | hz
    · exact .inl ho
    · cases hz
  · cases hn
    refine ⟨⟨_, by simp [Spec.put]; rfl⟩, ?_⟩
    intro z hz
    rcases List.mem_cons.1 hz with rfl | hz
    · exact .inl ho
    · cases hz
  · exfalso
    revert hn hl
    rcases log with _ | ⟨a, _ | ⟨b', _ | ⟨d, log⟩⟩⟩ <;> simp
    · cases a <;> cases b' <;> simp [bothNext]

/-- What the threads have seen. -/
def seen {R B : Type} : Outcome (Conf Bool Nat Nat R B (Out Nat Nat Nat)) → List (List (Seen (Out Nat Nat Nat)))
  | .running c => [(c.th true).log, (c.th false).log]
  | _ => []

/-- The two threads take turns. -/
def inTurns (n : Nat) : List (Bool × Env) := (List.replicate n [(true, fine 200), (false, fine 201)]).flatten

/-- Two threads that take turns, access by access, both read 7 in their copies. -/
example : seen (Conf.exec (Fine.Indirect.step (alloc false false false) (Fine.plain Demo.T)) bothNext (inTurns 30)
      (Conf.start (st false false false))) =
    [[.ret .unit, .ret (.value 7), .ret .unit], [.ret .unit, .ret (.value 7), .ret .unit]] := by decide +kernel

/-- The allocator tries to hand the same block to both threads: the second one gets `std::bad_alloc`. -/
example : seen (Conf.exec (Fine.Indirect.step (alloc false false false) (Fine.plain Demo.T)) bothNext
      ((List.replicate 30 [(true, fine 200), (false, fine 200)]).flatten) (Conf.start (st false false false))) =
    [[.ret .unit, .ret (.value 7), .ret .unit], [.exn .badAlloc]] := by decide +kernel

/-! ### Why shared objects must not be changed -/

/-- Thread `true` reads object 1, thread `false` destroys it. -/
def clashNext (b : Bool) : List (Seen (Out Nat Nat Nat)) → Option (Op Nat Nat Nat Nat)
  | [] => some (if b then .deref 1 else .destroy 1)
  | _ => none

/-- The program is ended by this kind of undefined behaviour. -/
def undefinedBy {C : Type} : Outcome C → Option UB
  | .ub u => some u
  | _ => none

/-- Thread `true` is about to read block `p`, and thread `false` to write it. -/
def clashes {L A R B O : Type} (p : Addr) : Outcome (Conf Bool L A R B O) → Bool
  | .running c =>
    match Spec.nextAct (c.th true), Spec.nextAct (c.th false) with
    | some (.readBody q), some (.writeBody q' _) => q == p && q' == p
    | _, _ => false
  | _ => false

theorem race_of_clashes {L A R B O : Type} {p : Addr} {r : Outcome (Conf Bool L A R B O)} (h : clashes p r = true) :
    ∃ c, r = .running c ∧ Spec.Race c := by
  cases r with
  | running c =>
    refine ⟨c, rfl, ?_⟩
    simp only [clashes] at h
    split at h
    · rename_i q q' v h1 h2
      simp only [Bool.and_eq_true, beq_iff_eq] at h
      obtain ⟨rfl, rfl⟩ := h
      exact ⟨true, false, _, _, .block _, by decide, h1, h2, rfl, rfl, by simp [Spec.readOnly]⟩
    · cases h
  | _ => cases h

/-- Threads that do not respect what is shared can race, and use an object after its lifetime, although each of them alone makes
legal calls only. -/
theorem C66_sharing_matters :
    (∃ sched c, Conf.exec (Fine.Indirect.step (alloc false false false) (Fine.plain Demo.T)) clashNext sched
      (Conf.start (st false false false)) = .running c ∧ Spec.Race c) ∧
    (∃ sched, undefinedBy (Conf.exec (Fine.Indirect.step (alloc false false false) (Fine.plain Demo.T)) clashNext sched
      (Conf.start (st false false false))) = some .deadObject) ∧
    ∀ b o, clashNext b [] = some o → Spec.Legal (alloc false false false) (Indirect.abs (st false false false)) o := by
  refine ⟨?_, ?_, ?_⟩
  · obtain ⟨c, h1, h2⟩ := race_of_clashes (p := 100)
      (r := Conf.exec (Fine.Indirect.step (alloc false false false) (Fine.plain Demo.T)) clashNext
        ([(true, fine 0), (true, fine 0), (false, fine 0), (false, fine 0), (false, fine 0)])
        (Conf.start (st false false false))) (by decide +kernel)
    exact ⟨_, c, h1, h2⟩
  · exact ⟨[(true, fine 0), (true, fine 0), (false, fine 0), (false, fine 0), (false, fine 0), (false, fine 0), (false, fine 0),
      (false, fine 0), (true, fine 0)], by decide +kernel⟩
  · intro b o h
    cases b <;> cases h <;> decide

end

section
variable {L A R Ty V X Th : Type} [DecidableEq L] [DecidableEq R] [DecidableEq Ty] [DecidableEq Th]
open Polymorphic
variable {tr : ATraits A R} {P : PSpec Ty V X} {s : St L A R (PBody Ty V)} {owner : L → Option Th}
  {next : Th → List (Seen (Out L A (Ty × V))) → Option (POp L A Ty V X)} {sched : List (Th × Env)}
  {c : Conf Th L A R (PBody Ty V) (Out L A (Ty × V))}

/-- The same for `polymorphic`. -/
theorem C66_polymorphic_no_undefined_behaviour (S : tr.Sound) (h : Reach tr P s)
    (hF : ∀ i, Spec.Fair (Spec.pstep tr P) (Spec.PLegal tr) Spec.poperands Spec.pchanges owner next (abs s) i) (u : UB) :
    Conf.exec (Fine.Polymorphic.step tr (Fine.plainP P)) next sched (Conf.start s) ≠ .ub u :=
  Conc.no_ub (api := Conc.polymorphic tr P S) ⟨(h.sim S).1, (h.sim S).2.inv S⟩ hF sched u

/-- The same for `polymorphic`. -/
theorem C66_polymorphic_no_data_race (S : tr.Sound) (h : Reach tr P s)
    (hF : ∀ i, Spec.Fair (Spec.pstep tr P) (Spec.PLegal tr) Spec.poperands Spec.pchanges owner next (abs s) i)
    (hr : Conf.exec (Fine.Polymorphic.step tr (Fine.plainP P)) next sched (Conf.start s) = .running c) : ¬ Spec.Race c :=
  Conc.no_race (api := Conc.polymorphic tr P S) ⟨(h.sim S).1, (h.sim S).2.inv S⟩ hF hr

/-- The same for `polymorphic`. -/
theorem C66_polymorphic_threads_run_as_if_alone (S : tr.Sound) (h : Reach tr P s)
    (hF : ∀ i, Spec.Fair (Spec.pstep tr P) (Spec.PLegal tr) Spec.poperands Spec.pchanges owner next (abs s) i)
    (hr : Conf.exec (Fine.Polymorphic.step tr (Fine.plainP P)) next sched (Conf.start s) = .running c) (i : Th) :
    ∃ τ, Spec.Alone (Spec.pstep tr P) (next i) (abs s) (c.th i).log τ ∧
      ((c.th i).cur = none → ∀ z, Spec.Uses owner i z → abs (c.view i) z = τ z) :=
  Conc.as_alone (api := Conc.polymorphic tr P S) ⟨(h.sim S).1, (h.sim S).2.inv S⟩ hF hr i

/-- The same for `polymorphic`. -/
theorem C66_polymorphic_shared_objects_stay (S : tr.Sound) (h : Reach tr P s)
    (hF : ∀ i, Spec.Fair (Spec.pstep tr P) (Spec.PLegal tr) Spec.poperands Spec.pchanges owner next (abs s) i)
    (hr : Conf.exec (Fine.Polymorphic.step tr (Fine.plainP P)) next sched (Conf.start s) = .running c) (i : Th) {z : L}
    (hz : owner z = none) : abs (c.view i) z = abs s z :=
  Conc.shared_same (api := Conc.polymorphic tr P S) ⟨(h.sim S).1, (h.sim S).2.inv S⟩ hF hr i hz

/-- The same for `polymorphic`. -/
theorem C66_polymorphic_terminates_only_as_alone (S : tr.Sound) (h : Reach tr P s)
    (hF : ∀ i, Spec.Fair (Spec.pstep tr P) (Spec.PLegal tr) Spec.poperands Spec.pchanges owner next (abs s) i)
    (hr : Conf.exec (Fine.Polymorphic.step tr (Fine.plainP P)) next sched (Conf.start s) = .terminated) :
    ∃ i log τ o mem n, Spec.Alone (Spec.pstep tr P) (next i) (abs s) log τ ∧ next i log = some o ∧
      Spec.pstep tr P mem n τ o = .terminated :=
  Conc.terminated_alone (api := Conc.polymorphic tr P S) ⟨(h.sim S).1, (h.sim S).2.inv S⟩ hF hr

/-- The same for `polymorphic`. -/
theorem C66_polymorphic_nothing_leaks (S : tr.Sound) (h : Reach tr P s)
    (hF : ∀ i, Spec.Fair (Spec.pstep tr P) (Spec.PLegal tr) Spec.poperands Spec.pchanges owner next (abs s) i)
    (hr : Conf.exec (Fine.Polymorphic.step tr (Fine.plainP P)) next sched (Conf.start s) = .running c)
    (hidle : ∀ i, (c.th i).cur = none) :
    (∀ p k, c.heap p = some k → ∃ z h, c.hs z = some h ∧ h.p = some p) ∧
    (∀ z h p, c.hs z = some h → h.p = some p → c.heap p ≠ none) ∧
    ∀ z z' h h' p, c.hs z = some h → c.hs z' = some h' → h.p = some p → h'.p = some p → z = z' :=
  Conc.owned_once (api := Conc.polymorphic tr P S) ⟨(h.sim S).1, (h.sim S).2.inv S⟩ hF hr hidle

/-- The same for `polymorphic`. -/
theorem C66_polymorphic_wait_free {c' : Conf Th L A R (PBody Ty V) (Out L A (Ty × V))}
    (hr : Conf.exec (Fine.Polymorphic.step tr (Fine.plainP P)) next sched c = .running c') (i : Th)
    (hi : (c.th i).cur = none) (hn : next i (c.th i).log ≠ none) (ht : 42 ≤ Spec.turns i sched) :
    (c.th i).log.length < (c'.th i).log.length :=
  Conf.exec_progress (Fine.Polymorphic.am_step tr (Fine.am_plainP P)) hr hi hn ht

/-- The same for `polymorphic`. -/
theorem C66_polymorphic_uninterrupted (o : POp L A Ty V X) (e : Env) :
    Prog.interp (Fine.Polymorphic.step tr (Fine.plainP P) o) (s.enter e) = call tr (plainP P) o e s := by
  rw [Fine.Polymorphic.interp_step tr (Fine.plainP_same P)]; rfl

end

section
open Demo

/-- Copy object 1, read the copy, destroy it; stop at an exception. -/
def pbothNext (b : Bool) : List (Seen (Out Nat Nat (Nat × Nat))) → Option (POp Nat Nat Nat Nat Nat)
  | [] => some (.copy (mine b) 1)
  | [.ret _] => some (.deref (mine b))
  | [.ret _, .ret _] => some (.destroy (mine b))
  | _ => none

/-- What such a thread does alone. -/
theorem pboth_alone {b : Bool} {σ : Spec.Boxes Nat Nat (Nat × Nat)} (h1 : σ 1 = some ⟨5, some (1, 1007)⟩)
    {log : List (Seen (Out Nat Nat (Nat × Nat)))} {τ : Spec.Boxes Nat Nat (Nat × Nat)}
    (h : Spec.Alone (Spec.pstep (alloc false false false) PDemo.P) (pbothNext b) σ log τ) :
    log = [] ∧ τ = σ ∨ (∃ x, log = [.exn x]) ∨
      (∃ o, log = [.ret o] ∧ τ = Spec.put σ (mine b) ⟨5, some (1, 1007)⟩) ∨
      (∃ o o', log = [.ret o, .ret o'] ∧ τ = Spec.put σ (mine b) ⟨5, some (1, 1007)⟩) ∨ 3 ≤ log.length := by
  have hm : ∀ σ' : Spec.Boxes Nat Nat (Nat × Nat), Spec.put σ' (mine b) ⟨5, some (1, 1007)⟩ (mine b) = some ⟨5, some (1, 1007)⟩ := by
    intro; simp [Spec.put]
  induction h with
  | start => exact .inl ⟨rfl, rfl⟩
  | @ret log τ τ' out o mem n h hn hc ih =>
    rcases ih with ⟨rfl, rfl⟩ | ⟨x, rfl⟩ | ⟨o1, rfl, rfl⟩ | ⟨o1, o2, rfl, rfl⟩ | hl
    · cases hn
      simp only [Spec.pstep, h1, Spec.copyA, Spec.store, Spec.build, PSpec.owned, PDemo.P, alloc] at hc
      refine .inr (.inr (.inl ⟨out, rfl, ?_⟩))
      cases mem
      · cases hc
      · by_cases hn : n = 13
        · simp [hn, Except.map] at hc
        · simp only [hn, if_true, if_false, Except.map] at hc
          cases hc; rfl
    · cases hn
    · cases hn
      simp only [Spec.pstep, Spec.valueOf, hm, Option.bind_some] at hc
      cases hc
      exact .inr (.inr (.inr (.inl ⟨_, _, rfl, rfl⟩)))
    · right; right; right; right; simp
    · right; right; right; right; simp; omega
  | @threw log τ τ' x o mem n h hn hc ih =>
    rcases ih with ⟨rfl, rfl⟩ | ⟨x', rfl⟩ | ⟨o1, rfl, rfl⟩ | ⟨o1, o2, rfl, rfl⟩ | hl
    · exact .inr (.inl ⟨x, rfl⟩)
    · cases hn
    · cases hn
      simp only [Spec.pstep, Spec.valueOf, hm, Option.bind_some] at hc
      cases hc
    · right; right; right; right; simp
    · right; right; right; right; simp; omega

theorem pboth_fair_of {b : Bool} {σ : Spec.Boxes Nat Nat (Nat × Nat)} (h1 : σ 1 = some ⟨5, some (1, 1007)⟩)
    (h2 : σ (mine b) = none) {log : List (Seen (Out Nat Nat (Nat × Nat)))} {τ : Spec.Boxes Nat Nat (Nat × Nat)}
    {o : POp Nat Nat Nat Nat Nat}
    (h : Spec.Alone (Spec.pstep (alloc false false false) PDemo.P) (pbothNext b) σ log τ) (hn : pbothNext b log = some o) :
    Spec.PLegal (alloc false false false) τ o ∧
      ∀ z ∈ Spec.poperands o, bothOwner z = some b ∨ bothOwner z = none ∧ z ∉ Spec.pchanges o := by
  have ho : bothOwner (mine b) = some b := by cases b <;> rfl
  rcases pboth_alone h1 h with ⟨rfl, rfl⟩ | ⟨x, rfl⟩ | ⟨o1, rfl, rfl⟩ | ⟨o1, o2, rfl, rfl⟩ | hl
  · cases hn
    refine ⟨⟨h2, _, h1⟩, ?_⟩
    intro z hz
    rcases List.mem_cons.1 hz with rfl | hz
    · exact .inl ho
    · rcases List.mem_cons.1 hz with rfl | hz
      · refine .inr ⟨rfl, ?_⟩
        cases b <;> decide
      · cases hz
  · cases hn
  · cases hn
    refine ⟨⟨(1, 1007), by simp [Spec.valueOf, Spec.put]⟩, ?_⟩
    intro z hz
    rcases List.mem_cons.1 hz with rfl | hz
    · exact .inl ho
    · cases hz
  · cases hn
    refine ⟨⟨_, by simp [Spec.put]; rfl⟩, ?_⟩
    intro z hz
    rcases List.mem_cons.1 hz with rfl | hz
    · exact .inl ho
    · cases hz
  · exfalso
    revert hn hl
    rcases log with _ | ⟨a, _ | ⟨b', _ | ⟨d, log⟩⟩⟩ <;> simp
    · cases a <;> cases b' <;> simp [pbothNext]

/-- The hypothesis of the theorems above holds of these threads. -/
theorem pboth_fair (b : Bool) : Spec.Fair (Spec.pstep (alloc false false false) PDemo.P) (Spec.PLegal (alloc false false false))
    Spec.poperands Spec.pchanges bothOwner pbothNext (Polymorphic.abs (PDemo.st false false false)) b :=
  fun _ _ _ h hn => pboth_fair_of (by decide) (by cases b <;> decide) h hn

/-- What the threads have seen. -/
def pseen {R B : Type} :
    Outcome (Conf Bool Nat Nat R B (Out Nat Nat (Nat × Nat))) → List (List (Seen (Out Nat Nat (Nat × Nat))))
  | .running c => [(c.th true).log, (c.th false).log]
  | _ => []

/-- Two threads that take turns, access by access, both read the object of type 1 with value 1007 in their copies. -/
example : pseen (Conf.exec (Fine.Polymorphic.step (alloc false false false) (Fine.plainP PDemo.P)) pbothNext (inTurns 40)
      (Conf.start (PDemo.st false false false))) =
    [[.ret .unit, .ret (.value (1, 1007)), .ret .unit], [.ret .unit, .ret (.value (1, 1007)), .ret .unit]] := by decide +kernel

end
end Verif.Props
