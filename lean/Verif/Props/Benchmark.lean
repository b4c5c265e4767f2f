import Verif.Proofs.Benchmark
import Verif.Demo
import Verif.PDemo

/-!
# C101: the benchmarks compare like with like

A statement of the benchmarks on raw pointers, the same statement on `std::unique_ptr` and the one on `indirect` with the
default allocator do exactly the same to the program: same result or exception, same allocations, constructions,
destructions and deallocations in the same order, same final state.  One iteration of a copy benchmark with `n` elements
costs exactly `n` of each and leaves no trace in the values.
-/

set_option autoImplicit false
set_option linter.unusedSectionVars false

namespace Verif.Props
open Verif.Benchmark
open Verif.Wrapper (newDelete newDelete_sound)

section
variable {L V X : Type} [DecidableEq L] {T : TSpec V X} {s s' : St L Unit Unit (Obj V)}

/-- A statement on raw pointers does what the statement on `indirect` does. -/
theorem C101_raw_statement (h : Indirect.Reach newDelete T s) {o : Stmt L X} (hl : Legal s o) (e : Env) :
    rawCall (plain T) o e s = Indirect.call newDelete (plain T) (toOp o) e s :=
  raw_call (h.inv newDelete_sound) e hl

/-- So does a statement on `std::unique_ptr`. -/
theorem C101_unique_statement (h : Indirect.Reach newDelete T s) {o : Stmt L X} (hl : Legal s o) (e : Env) :
    uniqueCall (plain T) o e s = Indirect.call newDelete (plain T) (toOp o) e s :=
  (unique_call (h.inv newDelete_sound) e hl).trans (C101_raw_statement h hl e)

/-- A whole program on raw pointers has the outcome of the program on `indirect`: the same results and exceptions of
each statement and the same final state, trace included. -/
theorem C101_raw_history (h : Indirect.Reach newDelete T s) {cs : List (Stmt L X × Env)}
    (hl : LegalWith (fun c s => rawCall (plain T) c.1 c.2 s) (fun s c => Legal s c.1) cs s) :
    runWith (fun c s => rawCall (plain T) c.1 c.2 s) cs s =
      Indirect.run newDelete T (cs.map fun c => (toOp c.1, c.2)) s :=
  runWith_eq (R := Indirect.Reach newDelete T) (fun _ c h hl => C101_raw_statement h hl c.2)
    (fun _ c _ _ h hl hc => .ret _ _ _ h (legal_to hl) (by rw [← C101_raw_statement h hl c.2]; exact hc))
    (fun _ c _ _ h hl hc => .threw _ _ _ h (legal_to hl) (by rw [← C101_raw_statement h hl c.2]; exact hc)) cs s h hl

/-- A whole program on `std::unique_ptr` too. -/
theorem C101_unique_history (h : Indirect.Reach newDelete T s) {cs : List (Stmt L X × Env)}
    (hl : LegalWith (fun c s => uniqueCall (plain T) c.1 c.2 s) (fun s c => Legal s c.1) cs s) :
    runWith (fun c s => uniqueCall (plain T) c.1 c.2 s) cs s =
      Indirect.run newDelete T (cs.map fun c => (toOp c.1, c.2)) s :=
  runWith_eq (R := Indirect.Reach newDelete T) (fun _ c h hl => C101_unique_statement h hl c.2)
    (fun _ c _ _ h hl hc => .ret _ _ _ h (legal_to hl) (by rw [← C101_unique_statement h hl c.2]; exact hc))
    (fun _ c _ _ h hl hc => .threw _ _ _ h (legal_to hl) (by rw [← C101_unique_statement h hl c.2]; exact hc)) cs s h hl

end

section
variable {A R V X Ty : Type} [DecidableEq R] {tr : ATraits A R} {n : Nat} {is ds : List (Nat × Env)}

/-- An iteration of a copy benchmark with `n` `indirect`s that is not left by an exception allocates, constructs,
destroys and deallocates exactly `n` times, in whatever order the elements are copied and destroyed, and afterwards
every object is as it was. -/
theorem C101_indirect_iteration {T : TSpec V X} {s s' : St Elem A R (Obj V)} (S : tr.Sound)
    (h : Indirect.Reach tr T s) (hi : Covers n is) (hd : Covers n ds) (hr : Ready n (Indirect.abs s))
    (hc : Completes (Indirect.call tr (plain T)) (iteration .copy .destroy is ds) s s') :
    Costs s.trace s'.trace n n n n ∧ Indirect.abs s' = Indirect.abs s :=
  (iteration_run (indirect_works S) h hi hd hr hc).2

/-- An iteration with raw pointers costs the same. -/
theorem C101_raw_iteration {T : TSpec V X} {s s' : St Elem Unit Unit (Obj V)} (h : Indirect.Reach newDelete T s)
    (hi : Covers n is) (hd : Covers n ds) (hr : Ready n (Indirect.abs s))
    (hc : Completes (rawCall (plain T)) (iteration .clone .drop is ds) s s') :
    Costs s.trace s'.trace n n n n ∧ Indirect.abs s' = Indirect.abs s :=
  (iteration_run raw_works h hi hd hr hc).2

/-- And one with `std::unique_ptr`. -/
theorem C101_unique_iteration {T : TSpec V X} {s s' : St Elem Unit Unit (Obj V)} (h : Indirect.Reach newDelete T s)
    (hi : Covers n is) (hd : Covers n ds) (hr : Ready n (Indirect.abs s))
    (hc : Completes (uniqueCall (plain T)) (iteration .clone .drop is ds) s s') :
    Costs s.trace s'.trace n n n n ∧ Indirect.abs s' = Indirect.abs s :=
  (iteration_run unique_works h hi hd hr hc).2

/-- The same of `polymorphic`. -/
theorem C101_polymorphic_iteration [DecidableEq Ty] {P : PSpec Ty V X} {s s' : St Elem A R (PBody Ty V)} (S : tr.Sound)
    (h : Polymorphic.Reach tr P s) (hi : Covers n is) (hd : Covers n ds) (hr : Ready n (Polymorphic.abs s))
    (hc : Completes (Polymorphic.call tr (plainP P)) (iteration .copy .destroy is ds) s s') :
    Costs s.trace s'.trace n n n n ∧ Polymorphic.abs s' = Polymorphic.abs s :=
  (iteration_run (polymorphic_works S) h hi hd hr hc).2

end
section
variable {L Ty V X : Type} [DecidableEq L] [DecidableEq Ty] {P : PSpec Ty V X} {s : St L Unit Unit (PBody Ty V)}
open Polymorphic (view)

/-- A statement on `polymorphic` returns what the statement on raw pointers with a virtual `clone` returns, or throws
what it throws, and does the same to the owned objects, the storage and the trace. -/
theorem C101_polymorphic_statement (h : Polymorphic.Reach newDelete P s) {o : Stmt L (Ty × X)} (hl : Legal (view s) o)
    (e : Env) :
    (∃ out s', Polymorphic.call newDelete (plainP P) (toPOp o) e s = .ok out s' ∧
      rawCall (plain P.owned) (ownedStmt o) e (view s) = .ok out (view s')) ∨
    (∃ ex s', Polymorphic.call newDelete (plainP P) (toPOp o) e s = .threw ex s' ∧
      rawCall (plain P.owned) (ownedStmt o) e (view s) = .threw ex (view s')) := by
  have hs := p_call h hl e
  have ht := C39_terminates_iff newDelete_sound h (legal_p hl) e
  rcases C31_call_no_undefined_behaviour newDelete_sound h _ e (legal_p hl) with ⟨out, s', hc⟩ | ⟨x, s', hc⟩ | hc
  · rw [hc] at hs
    exact .inl ⟨out, s', hc, hs.2⟩
  · rw [hc] at hs
    exact .inr ⟨x, s', hc, hs.2⟩
  · obtain ⟨x, y, _, _, _, _, ho, _⟩ := ht.mp hc
    cases o <;> cases ho

/-- With `std::unique_ptr` the same. -/
theorem C101_polymorphic_unique_statement (h : Polymorphic.Reach newDelete P s) {o : Stmt L (Ty × X)}
    (hl : Legal (view s) o) (e : Env) :
    uniqueCall (plain P.owned) (ownedStmt o) e (view s) = rawCall (plain P.owned) (ownedStmt o) e (view s) :=
  unique_call ((h.sim newDelete_sound).2.inv newDelete_sound) e (legal_owned.mpr hl)

/-- A whole program on pointers to a base class sees the same results and exceptions as the program on `polymorphic`, and
ends with the same owned objects, storage and trace. -/
theorem C101_polymorphic_history : ∀ {s : St L Unit Unit (PBody Ty V)} {cs : List (Stmt L (Ty × X) × Env)},
    Polymorphic.Reach newDelete P s →
    LegalWith (fun c t => rawCall (plain P.owned) (ownedStmt c.1) c.2 t) (fun t c => Legal t c.1) cs (view s) →
    ∃ log s', Polymorphic.run newDelete P (cs.map fun c => (toPOp c.1, c.2)) s = .done log s' ∧
      runWith (fun c t => rawCall (plain P.owned) (ownedStmt c.1) c.2 t) cs (view s) = .done log (view s') := by
  intro s cs
  induction cs generalizing s with
  | nil => exact fun _ _ => ⟨[], s, rfl, rfl⟩
  | cons c cs ih =>
    intro h hl
    obtain ⟨h1, h2⟩ := hl
    rcases C101_polymorphic_statement h h1 c.2 with ⟨out, t, k1, k2⟩ | ⟨x, t, k1, k2⟩
    · simp only [k2] at h2
      obtain ⟨log, s', r1, r2⟩ := ih (.ret _ _ _ h (legal_p h1) k1) h2
      refine ⟨.ret out :: log, s', ?_, ?_⟩
      · simp only [Polymorphic.run, List.map_cons, runWith, k1] at r1 ⊢
        rw [r1]; rfl
      · simp only [runWith, k2, r2]; rfl
    · simp only [k2] at h2
      obtain ⟨log, s', r1, r2⟩ := ih (.threw _ _ _ h (legal_p h1) k1) h2
      refine ⟨.exn x :: log, s', ?_, ?_⟩
      · simp only [Polymorphic.run, List.map_cons, runWith, k1] at r1 ⊢
        rw [r1]; rfl
      · simp only [runWith, k2, r2]; rfl

end

section
variable {L A R V X Ty N : Type} [DecidableEq L] [DecidableEq R] {tr : ATraits A R} {add : N → V → N}
open Polymorphic (view)

/-- Accumulating over `indirect`s that hold the values `vs` gives what accumulating over `vs` gives; no allocator and no
operation of `T` is called and nothing changes. -/
theorem C101_indirect_accumulate {T : TSpec V X} {s : St L A R (Obj V)} (S : tr.Sound) (h : Indirect.Reach tr T s)
    {xs : List (L × Env)} {vs : List V} (hv : xs.map (fun x => Spec.valueOf (Indirect.abs s) x.1) = vs.map some)
    (acc : N) :
    ∃ t, accumulate (fun x => Indirect.call tr (plain T) (.arrow x)) add xs acc s = .ok (vs.foldl add acc) t ∧
      Spec.Untouched s t ∧ Spec.Silent s t :=
  accumulate_run (Re := Indirect.Reach tr T) (f := fun s => Spec.valueOf (Indirect.abs s))
    (same := fun s t => Spec.Untouched s t ∧ Spec.Silent s t) (fun _ => ⟨⟨rfl, rfl⟩, rfl⟩)
    (fun a b => ⟨⟨b.1.1.trans a.1.1, b.1.2.trans a.1.2⟩, b.2.trans a.2⟩)
    (fun a => by simp only [abs_untouched a.1]) (fun e => indirect_reads S e) xs vs acc s h hv

/-- The same of `polymorphic`. -/
theorem C101_polymorphic_accumulate [DecidableEq Ty] {P : PSpec Ty V X} {s : St L A R (PBody Ty V)} (S : tr.Sound)
    {padd : N → Ty × V → N} (h : Polymorphic.Reach tr P s) {xs : List (L × Env)} {vs : List (Ty × V)}
    (hv : xs.map (fun x => Spec.valueOf (Polymorphic.abs s) x.1) = vs.map some) (acc : N) :
    ∃ t, accumulate (fun x => Polymorphic.call tr (plainP P) (.arrow x)) padd xs acc s = .ok (vs.foldl padd acc) t ∧
      Spec.Untouched (view s) (view t) ∧ Spec.Silent s t :=
  accumulate_run (Re := Polymorphic.Reach tr P) (f := fun s => Spec.valueOf (Polymorphic.abs s))
    (same := fun s t => Spec.Untouched (view s) (view t) ∧ Spec.Silent s t) (fun _ => ⟨⟨rfl, rfl⟩, rfl⟩)
    (fun a b => ⟨⟨b.1.1.trans a.1.1, b.1.2.trans a.1.2⟩, b.2.trans a.2⟩)
    (fun a => by simp only [← Polymorphic.abs_view, abs_untouched a.1]) (fun e => polymorphic_reads S e) xs vs acc s h hv

/-- Accumulating over raw pointers is the same computation. -/
theorem C101_raw_accumulate {T : TSpec V X} {s : St L Unit Unit (Obj V)} (h : Indirect.Reach newDelete T s)
    {xs : List (L × Env)} {vs : List V} (hv : xs.map (fun x => Spec.valueOf (Indirect.abs s) x.1) = vs.map some)
    (acc : N) :
    accumulate (fun x => rawCall (plain T) (.value x)) add xs acc s =
      accumulate (fun x => Indirect.call newDelete (plain T) (.arrow x)) add xs acc s :=
  accumulate_eq (Re := Indirect.Reach newDelete T) (f := fun s => Spec.valueOf (Indirect.abs s))
    (fun e h hv => ⟨rfl, by
      obtain ⟨t, h1, h2, h3⟩ := indirect_reads newDelete_sound e h hv
      exact ⟨t, h1, h2, by simp only [abs_untouched h3.1]⟩⟩) xs vs acc s h hv

/-- Over `std::unique_ptr` too. -/
theorem C101_unique_accumulate {T : TSpec V X} {s : St L Unit Unit (Obj V)} (h : Indirect.Reach newDelete T s)
    {xs : List (L × Env)} {vs : List V} (hv : xs.map (fun x => Spec.valueOf (Indirect.abs s) x.1) = vs.map some)
    (acc : N) :
    accumulate (fun x => uniqueCall (plain T) (.value x)) add xs acc s =
      accumulate (fun x => Indirect.call newDelete (plain T) (.arrow x)) add xs acc s :=
  C101_raw_accumulate h hv acc

end

section
variable {A R V X Ty : Type} [DecidableEq R] {tr : ATraits A R} {n : Nat} {is ds : List (Nat × Env)}

/-- An iteration with `indirect`s completes, or one of the copies throws; then those before it cost one allocation and
one construction each, and nothing has been destroyed.  Destroying the copies never fails. -/
theorem C101_indirect_iteration_ends {T : TSpec V X} {s : St Elem A R (Obj V)} (S : tr.Sound)
    (h : Indirect.Reach tr T s) (hi : Covers n is) (hd : Covers n ds) (hr : Ready n (Indirect.abs s)) :
    (∃ s', Completes (Indirect.call tr (plain T)) (iteration .copy .destroy is ds) s s') ∨
    ∃ js i ks t ex t', is = js ++ i :: ks ∧
      Completes (Indirect.call tr (plain T)) (js.map fun i => (.copy (true, i.1) (false, i.1), i.2)) s t ∧
      Indirect.call tr (plain T) (.copy (true, i.1) (false, i.1)) i.2 t = .threw ex t' ∧
      Costs s.trace t.trace js.length js.length 0 0 :=
  iteration_end (indirect_works S) (indirect_ends S) h hi hd hr

/-- The same of `polymorphic`. -/
theorem C101_polymorphic_iteration_ends [DecidableEq Ty] {P : PSpec Ty V X} {s : St Elem A R (PBody Ty V)} (S : tr.Sound)
    (h : Polymorphic.Reach tr P s) (hi : Covers n is) (hd : Covers n ds) (hr : Ready n (Polymorphic.abs s)) :
    (∃ s', Completes (Polymorphic.call tr (plainP P)) (iteration .copy .destroy is ds) s s') ∨
    ∃ js i ks t ex t', is = js ++ i :: ks ∧
      Completes (Polymorphic.call tr (plainP P)) (js.map fun i => (.copy (true, i.1) (false, i.1), i.2)) s t ∧
      Polymorphic.call tr (plainP P) (.copy (true, i.1) (false, i.1)) i.2 t = .threw ex t' ∧
      Costs s.trace t.trace js.length js.length 0 0 :=
  iteration_end (polymorphic_works S) (polymorphic_ends S) h hi hd hr

/-- The same of raw pointers. -/
theorem C101_raw_iteration_ends {T : TSpec V X} {s : St Elem Unit Unit (Obj V)} (h : Indirect.Reach newDelete T s)
    (hi : Covers n is) (hd : Covers n ds) (hr : Ready n (Indirect.abs s)) :
    (∃ s', Completes (rawCall (plain T)) (iteration .clone .drop is ds) s s') ∨
    ∃ js i ks t ex t', is = js ++ i :: ks ∧
      Completes (rawCall (plain T)) (js.map fun i => (.clone (true, i.1) (false, i.1), i.2)) s t ∧
      rawCall (plain T) (.clone (true, i.1) (false, i.1)) i.2 t = .threw ex t' ∧
      Costs s.trace t.trace js.length js.length 0 0 :=
  iteration_end raw_works raw_ends h hi hd hr

end

/-! ## The hypotheses can be met -/

namespace BDemo

instance {L V : Type} (s : St L Unit Unit (Obj V)) (x : L) : Decidable (Points s x) :=
  match h : Indirect.abs s x with
  | some ⟨(), some v⟩ => isTrue ⟨v, h⟩
  | some ⟨(), none⟩ => isFalse (by rintro ⟨v, hv⟩; rw [h] at hv; cases hv)
  | none => isFalse (by rintro ⟨v, hv⟩; rw [h] at hv; cases hv)

instance {L V X : Type} (s : St L Unit Unit (Obj V)) (o : Stmt L X) : Decidable (Benchmark.Legal s o) := by
  cases o <;> unfold Benchmark.Legal <;> infer_instance

/-- The state after a call that returns. -/
def after {C S O : Type} (call : C → Env → S → Res S O) (c : C) (e : Env) (s : S) : S :=
  match call c e s with
  | .ok _ t => t
  | _ => s

/-- The state at the end of calls that all return. -/
def finish {C S O : Type} (call : C → Env → S → Res S O) : List (C × Env) → S → Option S
  | [], s => some s
  | c :: cs, s =>
    match call c.1 c.2 s with
    | .ok _ t => finish call cs t
    | _ => none

theorem finish_completes {C S O : Type} {call : C → Env → S → Res S O} : ∀ (cs : List (C × Env)) {s : S},
    (finish call cs s).isSome = true → ∃ s', Completes call cs s s'
  | [], s, _ => ⟨s, rfl⟩
  | c :: cs, s, h => by
    unfold finish at h
    split at h
    · rename_i o t hc
      obtain ⟨s', h'⟩ := finish_completes cs h
      exact ⟨s', o, t, hc, h'⟩
    · cases h

/-- `v` has two elements. -/
def two : St Elem Unit Unit (Obj Nat) :=
  after (Indirect.call newDelete (plain Demo.T)) (.make (false, 1) none (.inPlace [8])) (Demo.fine 101)
    (after (Indirect.call newDelete (plain Demo.T)) (.make (false, 0) none (.inPlace [7])) (Demo.fine 100) St.init)

theorem after_reach {s : St Elem Unit Unit (Obj Nat)} {o : Op Elem Unit Nat Nat} {e : Env}
    (h : Indirect.Reach newDelete Demo.T s) (hl : Spec.Legal newDelete (Indirect.abs s) o) :
    Indirect.Reach newDelete Demo.T (after (Indirect.call newDelete (plain Demo.T)) o e s) := by
  unfold after
  split
  · exact .ret _ _ _ h hl (by assumption)
  · exact h

theorem two_reach : Indirect.Reach newDelete Demo.T two := after_reach (after_reach .init (by decide)) (by decide)

/-- `v` has two elements of different types. -/
def ptwo : St Elem Unit Unit (PBody Nat Nat) :=
  after (Polymorphic.call newDelete (plainP PDemo.P)) (.make (false, 1) none (.inPlace 2 [8])) (Demo.fine 101)
    (after (Polymorphic.call newDelete (plainP PDemo.P)) (.make (false, 0) none (.inPlace 1 [7])) (Demo.fine 100) St.init)

theorem pafter_reach {s : St Elem Unit Unit (PBody Nat Nat)} {o : POp Elem Unit Nat Nat Nat} {e : Env}
    (h : Polymorphic.Reach newDelete PDemo.P s) (hl : Spec.PLegal newDelete (Polymorphic.abs s) o) :
    Polymorphic.Reach newDelete PDemo.P (after (Polymorphic.call newDelete (plainP PDemo.P)) o e s) := by
  unfold after
  split
  · exact .ret _ _ _ h hl (by assumption)
  · exact h

theorem ptwo_reach : Polymorphic.Reach newDelete PDemo.P ptwo :=
  pafter_reach (pafter_reach .init (by decide)) (by decide)

/-- Copied in ascending order, destroyed in ascending order as the loops on raw pointers do, or in descending order as
the destructor of an array does. -/
def up : List (Nat × Env) := [(0, Demo.fine 102), (1, Demo.fine 103)]
def down : List (Nat × Env) := [(1, Demo.full), (0, Demo.full)]

theorem up_covers : Covers 2 up := .refl _
theorem down_covers : Covers 2 down := .swap _ _ _

theorem two_ready : Ready 2 (Indirect.abs two) := by
  intro i hi
  match i, hi with
  | 0, _ => exact ⟨⟨(), _, rfl⟩, rfl⟩
  | 1, _ => exact ⟨⟨(), _, rfl⟩, rfl⟩

theorem ptwo_ready : Ready 2 (Polymorphic.abs ptwo) := by
  intro i hi
  match i, hi with
  | 0, _ => exact ⟨⟨(), _, rfl⟩, rfl⟩
  | 1, _ => exact ⟨⟨(), _, rfl⟩, rfl⟩

/-- Each way to write the iteration completes, and costs two of everything. -/
example : ∃ s', Completes (Indirect.call newDelete (plain Demo.T)) (iteration .copy .destroy up down) two s' ∧
    Costs two.trace s'.trace 2 2 2 2 := by
  obtain ⟨s', h⟩ := finish_completes (call := Indirect.call newDelete (plain Demo.T))
    (iteration .copy .destroy up down) (s := two) (by decide)
  exact ⟨s', h, (C101_indirect_iteration newDelete_sound two_reach up_covers down_covers two_ready h).1⟩

example : ∃ s', Completes (rawCall (plain Demo.T)) (iteration .clone .drop up up) two s' ∧
    Costs two.trace s'.trace 2 2 2 2 := by
  obtain ⟨s', h⟩ := finish_completes (call := rawCall (plain Demo.T)) (iteration .clone .drop up up) (s := two) (by decide)
  exact ⟨s', h, (C101_raw_iteration two_reach up_covers up_covers two_ready h).1⟩

example : ∃ s', Completes (uniqueCall (plain Demo.T)) (iteration .clone .drop up down) two s' ∧
    Costs two.trace s'.trace 2 2 2 2 := by
  obtain ⟨s', h⟩ := finish_completes (call := uniqueCall (plain Demo.T)) (iteration .clone .drop up down) (s := two)
    (by decide)
  exact ⟨s', h, (C101_unique_iteration two_reach up_covers down_covers two_ready h).1⟩

example : ∃ s', Completes (Polymorphic.call newDelete (plainP PDemo.P)) (iteration .copy .destroy up down) ptwo s' ∧
    Costs ptwo.trace s'.trace 2 2 2 2 := by
  obtain ⟨s', h⟩ := finish_completes (call := Polymorphic.call newDelete (plainP PDemo.P))
    (iteration .copy .destroy up down) (s := ptwo) (by decide)
  exact ⟨s', h, (C101_polymorphic_iteration newDelete_sound ptwo_reach up_covers down_covers ptwo_ready h).1⟩

/-- A program: two pointers, a clone that throws, one that does not, reads and deletions. -/
def prog : List (Stmt Elem Nat × Env) :=
  [(.make (false, 0) 42, Demo.fine 100), (.clone (true, 0) (false, 0), Demo.bad 101),
    (.clone (true, 0) (false, 0), Demo.fine 101), (.value (true, 0), Demo.full), (.drop (true, 0), Demo.full),
    (.drop (false, 0), Demo.full)]

instance (call : Stmt Elem Nat × Env → St Elem Unit Unit (Obj Nat) → Res (St Elem Unit Unit (Obj Nat)) (Out Elem Unit Nat))
    (cs : List (Stmt Elem Nat × Env)) (s : St Elem Unit Unit (Obj Nat)) :
    Decidable (LegalWith call (fun s c => Benchmark.Legal s c.1) cs s) :=
  decLegalWith call (fun s c => Benchmark.Legal s c.1) cs s

example : LegalWith (fun c s => rawCall (plain Demo.T) c.1 c.2 s) (fun s c => Benchmark.Legal s c.1) prog
    (St.init : St Elem Unit Unit (Obj Nat)) ∧
    LegalWith (fun c s => uniqueCall (plain Demo.T) c.1 c.2 s) (fun s c => Benchmark.Legal s c.1) prog
    (St.init : St Elem Unit Unit (Obj Nat)) ∧
    Benchmark.Legal two (.clone (true, 0) (false, 1) : Stmt Elem Nat) := by decide

/-- The same with objects of two classes. -/
def pprog : List (Stmt Elem (Nat × Nat) × Env) :=
  [(.make (false, 0) (1, 42), Demo.fine 100), (.make (false, 1) (2, 43), Demo.fine 101),
    (.clone (true, 0) (false, 1), Demo.bad 102), (.clone (true, 0) (false, 1), Demo.fine 102),
    (.value (true, 0), Demo.full), (.drop (true, 0), Demo.full), (.drop (false, 0), Demo.full)]

instance (call : Stmt Elem (Nat × Nat) × Env → St Elem Unit Unit (Obj (Nat × Nat)) →
      Res (St Elem Unit Unit (Obj (Nat × Nat))) (Out Elem Unit (Nat × Nat)))
    (cs : List (Stmt Elem (Nat × Nat) × Env)) (s : St Elem Unit Unit (Obj (Nat × Nat))) :
    Decidable (LegalWith call (fun s c => Benchmark.Legal s c.1) cs s) :=
  decLegalWith call (fun s c => Benchmark.Legal s c.1) cs s

example : LegalWith (fun c t => rawCall (plain PDemo.P.owned) (ownedStmt c.1) c.2 t) (fun s c => Benchmark.Legal s c.1)
    pprog (Polymorphic.view (St.init : St Elem Unit Unit (PBody Nat Nat))) ∧
    Benchmark.Legal (Polymorphic.view ptwo) (.clone (true, 0) (false, 1) : Stmt Elem (Nat × Nat)) := by decide

/-- The sum of two elements. -/
example : ([((false, 0), Demo.full), ((false, 1), Demo.full)] : List (Elem × Env)).map
      (fun x => Spec.valueOf (Indirect.abs two) x.1) = [7, 8].map some ∧
    ([((false, 0), Demo.full), ((false, 1), Demo.full)] : List (Elem × Env)).map
      (fun x => Spec.valueOf (Polymorphic.abs ptwo) x.1) = [(1, 1007), (2, 2008)].map some := by decide

end BDemo
end Verif.Props
