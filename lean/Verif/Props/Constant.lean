import Verif.Consteval
import Verif.Proofs.Constant
import Verif.Props.Block

/-!
# C81: constant evaluation

A `consteval` function has to be evaluated by the compiler, so it must not run into undefined behaviour, throw, or leave storage
behind, and its result cannot depend on addresses.  `Spec.IsConstant` says so of a program with local variables.
-/

set_option autoImplicit false
set_option linter.unusedSectionVars false

namespace Verif.Props
open Verif

section
variable {L A R V X α : Type} [DecidableEq L] [DecidableEq R]
open Indirect
variable {tr : ATraits A R} {T : TSpec V X} {C : TCmp V} {M : L → Prop}
  {b : Block (Either (Op L A V X) (Query L V)) (Out L A V) α}

/-- indirect.h: with interchangeable allocators and an owned type whose operations do not throw and do the same every time, every
program of local variables that follows the rules of C75 and does not throw by itself is a constant expression: it runs without
undefined behaviour to one result, which is what it computes on plain values, and leaves nothing behind. -/
theorem C81_constant (S : tr.Sound) (hA : ∀ a b, tr.eq a b = true) (hT : Spec.Steady T) (hC : Spec.SteadyCmp C)
    (hb : Spec.InScope Spec.elife (Spec.euses Spec.qoperands) (Spec.ERespects M) (fun _ => False) b) (hq : Spec.Quiet b) :
    ∃ a, Spec.IsConstant (Indirect.either tr T C : _ → _ → St L A R (Obj V) → _) b.client a ∧
      ∀ n, ∃ σ, Spec.runOn (Spec.estep tr T C) b.client (fun _ => (true, n)) (fun _ => none) = .done (.ok a) σ := by
  have hL : Spec.Live (abs (St.init : St L A R (Obj V))) = fun _ => False := by
    funext z; simp [Spec.Live, abs, absWith, St.init]
  have h0 : abs (St.init : St L A R (Obj V)) = fun _ => none := by
    funext z; simp [abs, absWith, St.init]
  have hc : Spec.Careful (Spec.estep tr T C) (Spec.ELegal tr) b.client (abs (St.init : St L A R (Obj V))) :=
    (C75_rules_suffice (s := St.init) (M := M) (T := T) (C := C) S hA .init
      (fun z b h => by simp [abs, absWith, St.init] at h) (hL ▸ hb) (fun _ => ⟨fun _ => false, fun _ => 0, fun _ => 0⟩)).1
  have ok := (Indirect.Reach.init (L := L) (tr := tr) (T := T)).inv S
  have ht := (Indirect.Reach.init (L := L) (tr := tr) (T := T)).traceOk
  have hR : Spec.AllReturn (Conc.queried (L := L) tr T C S).step (Conc.queried (L := L) tr T C S).vlegal := Spec.steady_estep tr hT hC
  rw [Conc.either_eq]
  obtain ⟨es₀, hes₀⟩ := Conc.served_exists (Conc.queried tr T C S) TraceOk (fun s h => h.free)
    (fun c e s I hl ht => Conc.either_traceOk tr T C c e s I hl ht) b.client ok hc ht
  obtain ⟨r, s₀, h1, h2, a, rfl⟩ := Conc.served_run (Conc.queried tr T C S) hR (fun _ => 0) b.client ok hc hes₀ (Spec.quiet_always b hq)
  have hv : ∀ n, ∃ σ, Spec.runOn (Spec.estep tr T C) b.client (fun _ => (true, n)) (fun _ => none) = .done (.ok a) σ := by
    intro n
    obtain ⟨r, s₁, h3, h4, -⟩ := Conc.served_run (Conc.queried tr T C S) hR n b.client ok hc hes₀ (Spec.quiet_always b hq)
    rw [h1] at h3; cases h3
    rw [← h0]; exact ⟨_, h4⟩
  refine ⟨a, ⟨⟨es₀, hes₀⟩, fun es hes => ?_⟩, hv⟩
  obtain ⟨r, s', h3, h4, -⟩ := Conc.served_run (Conc.queried tr T C S) hR (fun _ => 0) b.client ok hc hes (Spec.quiet_always b hq)
  have e := h2.symm.trans h4
  simp only [Spec.End.done.injEq] at e
  obtain ⟨rfl, -⟩ := e
  exact ⟨s', h3, C75_nothing_left S (Spec.inScope_scoped b hb) hc (by rw [Conc.either_eq]; exact h3)⟩

/-- indirect.h: … and its value can be found by computing with plain values. -/
theorem C81_value (S : tr.Sound) (hA : ∀ a b, tr.eq a b = true) (hT : Spec.Steady T) (hC : Spec.SteadyCmp C)
    (hb : Spec.InScope Spec.elife (Spec.euses Spec.qoperands) (Spec.ERespects M) (fun _ => False) b) (hq : Spec.Quiet b)
    {n : Nat → Nat} {a : α} {σ : Spec.Boxes L A V}
    (h : Spec.runOn (Spec.estep tr T C) b.client (fun _ => (true, n)) (fun _ => none) = .done (.ok a) σ) :
    Spec.IsConstant (Indirect.either tr T C : _ → _ → St L A R (Obj V) → _) b.client a := by
  obtain ⟨a', h1, h2⟩ := C81_constant (M := M) S hA hT hC hb hq
  obtain ⟨σ', h3⟩ := h2 n
  rw [h] at h3; cases h3
  exact h1

end

section
variable {L A R B C O α : Type} [DecidableEq R]

/-- A constant expression has one value. -/
theorem C81_one_value {call : C → Env → St L A R B → Res (St L A R B) O} {p : Client C O (Except Exn α)} {a a' : α}
    (h : Spec.IsConstant call p a) (h' : Spec.IsConstant call p a') : a = a' := by
  obtain ⟨es, hes⟩ := h.1
  obtain ⟨s, h1, -⟩ := h.2 es hes
  obtain ⟨s', h2, -⟩ := h'.2 es hes
  rw [h1] at h2; cases h2; rfl

end

section
variable {L A R Ty V X α : Type} [DecidableEq L] [DecidableEq R] [DecidableEq Ty]
open Polymorphic
variable {tr : ATraits A R} {P : PSpec Ty V X} {M : L → Prop} {b : Block (POp L A Ty V X) (Out L A (Ty × V)) α}

/-- polymorphic.h: with interchangeable allocators and owned types whose operations do not throw and do the same every time, every
program of local variables that follows the rules of C75 and does not throw by itself is a constant expression. -/
theorem C81_polymorphic_constant (S : tr.Sound) (hA : ∀ a b, tr.eq a b = true) (hP : Spec.SteadyP P)
    (hb : Spec.InScope Spec.plife Spec.puses (Spec.PRespects M) (fun _ => False) b) (hq : Spec.Quiet b) :
    ∃ a, Spec.IsConstant (Polymorphic.call tr (plainP P) : _ → _ → St L A R (PBody Ty V) → _) b.client a ∧
      ∀ n, ∃ σ, Spec.runOn (Spec.pstep tr P) b.client (fun _ => (true, n)) (fun _ => none) = .done (.ok a) σ := by
  have hL : Spec.Live (abs (St.init : St L A R (PBody Ty V))) = fun _ => False := by
    funext z; simp [Spec.Live, abs, absWith, St.init]
  have h0 : abs (St.init : St L A R (PBody Ty V)) = fun _ => none := by
    funext z; simp [abs, absWith, St.init]
  have hc : Spec.Careful (Spec.pstep tr P) (Spec.PLegal tr) b.client (abs (St.init : St L A R (PBody Ty V))) :=
    (C75_polymorphic_rules_suffice (s := St.init) (M := M) (P := P) S hA .init
      (fun z b h => by simp [abs, absWith, St.init] at h) (hL ▸ hb) (fun _ => ⟨fun _ => false, fun _ => 0, fun _ => 0⟩)).1
  have ok : (Conc.polymorphic (L := L) tr P S).Ok St.init :=
    ⟨((Polymorphic.Reach.init (L := L) (tr := tr) (P := P)).sim S).1, ((Polymorphic.Reach.init (tr := tr) (P := P)).sim S).2.inv S⟩
  have hR : Spec.AllReturn (Conc.polymorphic (L := L) tr P S).step (Conc.polymorphic (L := L) tr P S).vlegal := Spec.steady_pstep tr hP
  have hfree : ∀ s : St L A R (PBody Ty V), Polymorphic.Reach tr P s → ∃ p, s.heap p = none := fun s h => by
    obtain ⟨p, hp⟩ := (h.sim S).2.traceOk.free
    exact ⟨p, by simpa [view] using hp⟩
  obtain ⟨es₀, hes₀⟩ := Conc.served_exists (Conc.polymorphic tr P S) (Polymorphic.Reach tr P) hfree
    (fun c e s _ hl j => by
      show ((Polymorphic.call tr (plainP P)) c e s).All _
      cases ho : (Polymorphic.call tr (plainP P)) c e s with
      | ok o s' => exact .ret c e o j hl ho
      | threw x s' => exact .threw c e x j hl ho
      | _ => trivial) b.client ok hc .init
  obtain ⟨r, s₀, h1, h2, a, rfl⟩ := Conc.served_run (Conc.polymorphic tr P S) hR 0 b.client ok hc hes₀ (Spec.quiet_always b hq)
  have hv : ∀ n, ∃ σ, Spec.runOn (Spec.pstep tr P) b.client (fun _ => (true, n)) (fun _ => none) = .done (.ok a) σ := by
    intro n
    obtain ⟨r, s₁, h3, h4, -⟩ := Conc.served_run (Conc.polymorphic tr P S) hR n b.client ok hc hes₀ (Spec.quiet_always b hq)
    rw [h1] at h3; cases h3
    rw [← h0]; exact ⟨_, h4⟩
  refine ⟨a, ⟨⟨es₀, hes₀⟩, fun es hes => ?_⟩, hv⟩
  obtain ⟨r, s', h3, h4, -⟩ := Conc.served_run (Conc.polymorphic tr P S) hR 0 b.client ok hc hes (Spec.quiet_always b hq)
  have e := h2.symm.trans h4
  simp only [Spec.End.done.injEq] at e
  obtain ⟨rfl, -⟩ := e
  exact ⟨s', h3, C75_polymorphic_nothing_left S (Spec.inScope_scoped b hb) hc h3⟩

/-- polymorphic.h: … and its value can be found by computing with plain values. -/
theorem C81_polymorphic_value (S : tr.Sound) (hA : ∀ a b, tr.eq a b = true) (hP : Spec.SteadyP P)
    (hb : Spec.InScope Spec.plife Spec.puses (Spec.PRespects M) (fun _ => False) b) (hq : Spec.Quiet b)
    {n : Nat} {a : α} {σ : Spec.Boxes L A (Ty × V)}
    (h : Spec.runOn (Spec.pstep tr P) b.client (fun _ => (true, n)) (fun _ => none) = .done (.ok a) σ) :
    Spec.IsConstant (Polymorphic.call tr (plainP P) : _ → _ → St L A R (PBody Ty V) → _) b.client a := by
  obtain ⟨a', h1, h2⟩ := C81_polymorphic_constant (M := M) S hA hP hb hq
  obtain ⟨σ', h3⟩ := h2 n
  rw [h] at h3; cases h3
  exact h1

end

/-! ## The functions of compile_checks

They are also the examples for the theorems above. -/

section
open Verif.Demo (std std_sound)
open Verif.Consteval

theorem int_steady : Spec.Steady Consteval.int where
  make _ := ⟨_, fun _ => rfl⟩
  copy _ := ⟨_, fun _ => rfl⟩
  move _ := ⟨_, _, fun _ => rfl⟩
  copyAssign _ _ := ⟨_, fun _ => rfl⟩
  moveAssign _ _ := ⟨_, _, fun _ => rfl⟩
  assignArg _ _ := ⟨_, fun _ => rfl⟩

theorem intCmp_steady : Spec.SteadyCmp intCmp where
  threeWay g hg _ _ := by cases hg; exact ⟨_, fun _ => rfl⟩
  eq _ _ := ⟨_, fun _ => rfl⟩
  ne _ _ := ⟨_, fun _ => rfl⟩
  lt _ _ := ⟨_, fun _ => rfl⟩
  gt _ _ := ⟨_, fun _ => rfl⟩
  le _ _ := ⟨_, fun _ => rfl⟩
  ge _ _ := ⟨_, fun _ => rfl⟩
  hash _ := ⟨_, fun _ => rfl⟩

theorem hashable_steady : Spec.Steady hashable where
  make _ := ⟨_, fun _ => rfl⟩
  copy _ := ⟨_, fun _ => rfl⟩
  move _ := ⟨_, _, fun _ => rfl⟩
  copyAssign _ _ := ⟨_, fun _ => rfl⟩
  moveAssign _ _ := ⟨_, _, fun _ => rfl⟩
  assignArg _ _ := ⟨_, fun _ => rfl⟩

theorem hashableCmp_steady : Spec.SteadyCmp hashableCmp where
  threeWay g hg _ _ := by cases hg
  eq _ _ := ⟨_, fun _ => rfl⟩
  ne _ _ := ⟨_, fun _ => rfl⟩
  lt _ _ := ⟨_, fun _ => rfl⟩
  gt _ _ := ⟨_, fun _ => rfl⟩
  le _ _ := ⟨_, fun _ => rfl⟩
  ge _ _ := ⟨_, fun _ => rfl⟩
  hash _ := ⟨_, fun _ => rfl⟩

theorem classA_steady : Spec.SteadyP classA where
  make _ _ := ⟨_, fun _ => rfl⟩
  copy _ _ := ⟨_, fun _ => rfl⟩
  move _ _ := ⟨_, _, fun _ => rfl⟩

section
variable {L C O α : Type} {life : C → Spec.Life L} {uses : C → List L} {respects : C → Prop} {Γ : L → Prop}

theorem inScope_var {m d : C} {body : Block C O α} (x : L) (h1 : life m = .begins x) (h2 : life d = .ends x) (h3 : ¬ Γ x)
    (h4 : ∀ z ∈ uses m, Γ z) (h5 : respects m) (h6 : respects d)
    (h7 : Spec.InScope life uses respects (fun z => z = x ∨ Γ z) body) : Spec.InScope life uses respects Γ (var m d body) :=
  ⟨x, h1, h2, h3, h4, h5, h6, h7, fun r => by cases r <;> trivial⟩

theorem inScope_get {c : C} {f : O → Block C O α} (h1 : life c = .neither) (h2 : ∀ z ∈ uses c, Γ z) (h3 : respects c)
    (h4 : ∀ o, Spec.InScope life uses respects Γ (f o)) : Spec.InScope life uses respects Γ (get c f) :=
  ⟨h1, h2, h3, fun o => by cases o; exact h4 _; trivial⟩

end

/-- Check the rules of a straight-line program. -/
macro "straight" : tactic => `(tactic|
  repeat' first
    | exact trivial
    | (apply inScope_var <;> first | rfl | skip)
    | (apply inScope_get <;> first | rfl | skip)
    | (simp [Spec.euses, Spec.uses, Spec.operands, Spec.qoperands, Spec.ERespects, Spec.Respects, Spec.RespectsSrc, Spec.srcOperands,
        Spec.puses, Spec.poperands, Spec.PRespects]; done)
    | intro o)

theorem quiet_var {C O α : Type} {m d : C} {body : Block C O α} (h : Spec.Quiet body) : Spec.Quiet (var m d body) := ⟨h, fun _ => trivial⟩

theorem quiet_get {C O α : Type} {c : C} {f : O → Block C O α} (h : ∀ o, Spec.Quiet (f o)) : Spec.Quiet (Consteval.get c f) := h

/-- Check that a straight-line program does not throw. -/
macro "quiet" : tactic => `(tactic|
  repeat' first
    | exact trivial
    | apply quiet_var
    | (apply quiet_get; intro o))

/-- The result, if it is not an exception. -/
def final {L A V α : Type} : Spec.End L A V (Except Exn α) → Option α
  | .done (.ok a) _ => some a
  | _ => none

theorem final_some {L A V α : Type} {r : Spec.End L A V (Except Exn α)} {a : α} (h : final r = some a) : ∃ σ, r = .done (.ok a) σ := by
  cases r with
  | done b σ => cases b <;> cases h; exact ⟨σ, rfl⟩
  | _ => cases h

theorem functions_rules : ∀ b ∈ functions, (∃ M, Spec.InScope Spec.elife (Spec.euses Spec.qoperands) (Spec.ERespects M) (fun _ => False) b) ∧
    Spec.Quiet b := by
  simp only [functions, List.forall_mem_cons]
  refine ⟨?_, ?_, ?_, ?_, ?_, ?_, ?_, ?_, ?_, ?_, ?_, ?_, ?_, ?_, ?_, ?_, ?_, ?_, ?_, ?_, ?_, ?_, ?_, by simp⟩
  all_goals first
    | (refine ⟨⟨fun _ => False, ?_⟩, by quiet⟩; straight; done)
    | (refine ⟨⟨fun _ => True, ?_⟩, by quiet⟩; straight; done)

theorem functions_true : ∀ b ∈ functions,
    final (Spec.runOn (Spec.estep std Consteval.int intCmp) b.client (fun _ => (true, fun _ => 0)) (fun _ => none)) = some true := by
  decide +kernel

/-- The operators of the model of `int` are those of numbers. -/
theorem C81_int (v w : Int) (e : Nat) :
    ((Consteval.compare v w = .less ↔ v < w) ∧ (Consteval.compare v w = .greater ↔ w < v) ∧ (Consteval.compare v w = .equivalent ↔ v = w)) ∧
    intCmp.threeWay.map (· v w e) = some (.ok (Consteval.compare v w)) ∧
    (∃ eq ne lt gt le ge : Bool, intCmp.eq v w e = .ok eq ∧ intCmp.ne v w e = .ok ne ∧ intCmp.lt v w e = .ok lt ∧ intCmp.gt v w e = .ok gt ∧
      intCmp.le v w e = .ok le ∧ intCmp.ge v w e = .ok ge ∧
      (eq = true ↔ v = w) ∧ (ne = true ↔ v ≠ w) ∧ (lt = true ↔ v < w) ∧ (gt = true ↔ v > w) ∧ (le = true ↔ v ≤ w) ∧ (ge = true ↔ v ≥ w)) := by
  refine ⟨?_, rfl, _, _, _, _, _, _, rfl, rfl, rfl, rfl, rfl, rfl, ?_⟩
  · unfold Consteval.compare
    rcases Int.lt_trichotomy v w with h | h | h
    · simp [h, Int.lt_asymm h, Int.ne_of_lt h]
    · simp [h]
    · simp [h, Int.lt_asymm h, Int.ne_of_gt h]
  · simp

/-- The functions return `true` only for the results they ask for. -/
theorem C81_answers (v : Int) (o : Out Nat Unit Int) (q : Out Nat Unit (Unit × Int)) :
    (yes o = true ↔ o = .bool true) ∧ (isValue v o = true ↔ o = .value v) ∧
    (pyes q = true ↔ q = .bool true) ∧ (pisValue v q = true ↔ q = .value ((), v)) := by
  refine ⟨?_, ?_, ?_, ?_⟩
  · cases o <;> simp [yes]
  · cases o <;> simp [isValue]
  · cases q <;> simp [pyes]
  · cases q <;> simp [pisValue, Prod.ext_iff]

/-- compile_checks/indirect_consteval.cc: the static assertions on `indirect<int>` hold. -/
theorem C81_static_assertions : ∀ b ∈ functions,
    Spec.IsConstant (Indirect.either std Consteval.int intCmp : _ → _ → St Nat Unit Unit (Obj Int) → _) b.client true := by
  intro b hb
  obtain ⟨⟨M, h1⟩, h2⟩ := functions_rules b hb
  obtain ⟨σ, h3⟩ := final_some (functions_true b hb)
  exact C81_value std_sound (fun _ _ => rfl) int_steady intCmp_steady h1 h2 h3

/-- compile_checks/indirect_consteval.cc:244: the static assertion on the hash holds. -/
theorem C81_static_assertion_hash :
    Spec.IsConstant (Indirect.either std hashable hashableCmp : _ → _ → St Nat Unit Unit (Obj Unit) → _) Consteval.hash.client true := by
  obtain ⟨σ, h3⟩ := final_some (show final (Spec.runOn (Spec.estep std hashable hashableCmp) Consteval.hash.client (fun _ => (true, fun _ => 0))
    (fun _ => none)) = some true by decide +kernel)
  exact C81_value (M := fun _ => False) std_sound (fun _ _ => rfl) hashable_steady hashableCmp_steady (by straight) (by quiet) h3

theorem pfunctions_rules : ∀ b ∈ pfunctions, (∃ M, Spec.InScope Spec.plife Spec.puses (Spec.PRespects M) (fun _ => False) b) ∧
    Spec.Quiet b := by
  simp only [pfunctions, List.forall_mem_cons]
  refine ⟨?_, ?_, ?_, ?_, ?_, ?_, ?_, ?_, ?_, ?_, ?_, ?_, ?_, by simp⟩
  all_goals first
    | (refine ⟨⟨fun _ => False, ?_⟩, by quiet⟩; straight; done)
    | (refine ⟨⟨fun _ => True, ?_⟩, by quiet⟩; straight; done)

theorem pfunctions_true : ∀ b ∈ pfunctions,
    final (Spec.runOn (Spec.pstep std classA) b.client (fun _ => (true, 0)) (fun _ => none)) = some true := by
  decide +kernel

/-- compile_checks/polymorphic_consteval.cc: the static assertions hold. -/
theorem C81_polymorphic_static_assertions : ∀ b ∈ pfunctions,
    Spec.IsConstant (Polymorphic.call std (plainP classA) : _ → _ → St Nat Unit Unit (PBody Unit Int) → _) b.client true := by
  intro b hb
  obtain ⟨⟨M, h1⟩, h2⟩ := pfunctions_rules b hb
  obtain ⟨σ, h3⟩ := final_some (pfunctions_true b hb)
  exact C81_polymorphic_value std_sound (fun _ _ => rfl) classA_steady h1 h2 h3

end
end Verif.Props
