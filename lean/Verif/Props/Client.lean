import Verif.Proofs.Client
import Verif.PDemo

/-!
# C73: client programs

A program that calls the library and decides by what it sees (results and exceptions) what to do next: its run is that of the
same program on plain values.
-/

set_option autoImplicit false
set_option linter.unusedSectionVars false
set_option linter.unusedSimpArgs false

namespace Verif.Props
open Verif

section
variable {L A R V X α : Type} [DecidableEq L] [DecidableEq R]
open Indirect
variable {tr : ATraits A R} {T : TSpec V X} {C : TCmp V} {s s' : St L A R (Obj V)}
  {p : Client (Either (Op L A V X) (Query L V)) (Out L A V) α}

/-- indirect.h: a client that never violates a precondition ends as it does on plain values; in particular it has no undefined
behaviour. -/
theorem C73_as_on_values (S : tr.Sound) (h : Indirect.Reach tr T s)
    (hp : Spec.Careful (Spec.estep tr T C) (Spec.ELegal tr) p (abs s)) (es : Nat → Env) :
    Spec.EndsAs abs (p.run (Indirect.either tr T C) es s)
      (Spec.runOn (Spec.estep tr T C) p (Spec.luckOf (Indirect.either tr T C) Env.choice p es s) (abs s)) := by
  rw [Conc.either_eq]
  exact (Conc.client_run (Conc.queried tr T C S) p es s (h.inv S) hp).1

/-- indirect.h: no undefined behaviour. -/
theorem C73_no_undefined_behaviour (S : tr.Sound) (h : Indirect.Reach tr T s)
    (hp : Spec.Careful (Spec.estep tr T C) (Spec.ELegal tr) p (abs s)) (es : Nat → Env) (u : UB) :
    p.run (Indirect.either tr T C) es s ≠ .ub u := by
  rw [Conc.either_eq] at *
  exact Conc.client_no_ub (Conc.queried tr T C S) p (h.inv S) hp u

/-- indirect.h: where objects are stored does not matter.  Two runs from states with the same values, in which the environment
decides the same (but may choose other addresses), end with the same result and the same values. -/
theorem C73_addresses_do_not_matter (S : tr.Sound) (h : Indirect.Reach tr T s)
    (h' : Indirect.Reach tr T s') (ha : abs s = abs s')
    (hp : Spec.Careful (Spec.estep tr T C) (Spec.ELegal tr) p (abs s)) {es es' : Nat → Env}
    (hl : Spec.luckOf (Indirect.either tr T C) Env.choice p es s = Spec.luckOf (Indirect.either tr T C) Env.choice p es' s') :
    Spec.EndAlike abs (p.run (Indirect.either tr T C) es s) (p.run (Indirect.either tr T C) es' s') := by
  rw [Conc.either_eq] at *
  exact Conc.client_alike (Conc.queried tr T C S) p (h.inv S) (h'.inv S) ha hp hl

/-- indirect.h: nothing leaks and nothing is shared, whatever the client has done and caught. -/
theorem C73_nothing_leaks (S : tr.Sound) (h : Indirect.Reach tr T s)
    (hp : Spec.Careful (Spec.estep tr T C) (Spec.ELegal tr) p (abs s)) {es : Nat → Env} {a : α}
    (hr : p.run (Indirect.either tr T C) es s = .ok a s') : Spec.OwnedOnce s' := by
  rw [Conc.either_eq] at *
  exact Conc.client_owned (Conc.queried tr T C S) p (h.inv S) hp hr

end

section
variable {L A R V X α : Type} [DecidableEq L] [DecidableEq R]
open Indirect
variable {tr : ATraits A R} {T : TSpec V X} {C : TCmp V} {s s' : St L A R (Obj V)}
  {p : Client (Either (Op L A V X) (Query14 L V)) (Out L A V) α}

/-- indirect_cxx14.h: a client that never violates a precondition ends as it does on plain values; in particular it has no undefined
behaviour. -/
theorem C73_cxx14_as_on_values (S : tr.Sound) (h : Indirect14.Reach tr T s)
    (hp : Spec.Careful (Spec.estep14 tr T C) (Spec.ELegal14 tr) p (abs s)) (es : Nat → Env) :
    Spec.EndsAs abs (p.run (Indirect14.either tr T C) es s)
      (Spec.runOn (Spec.estep14 tr T C) p (Spec.luckOf (Indirect14.either tr T C) Env.choice p es s) (abs s)) := by
  rw [Conc.either14_eq]
  exact (Conc.client_run (Conc.queried14 tr T C S) p es s (((Indirect14.reach_iff tr T _).1 h).inv S) hp).1

/-- indirect_cxx14.h: no undefined behaviour. -/
theorem C73_cxx14_no_undefined_behaviour (S : tr.Sound) (h : Indirect14.Reach tr T s)
    (hp : Spec.Careful (Spec.estep14 tr T C) (Spec.ELegal14 tr) p (abs s)) (es : Nat → Env) (u : UB) :
    p.run (Indirect14.either tr T C) es s ≠ .ub u := by
  rw [Conc.either14_eq] at *
  exact Conc.client_no_ub (Conc.queried14 tr T C S) p (((Indirect14.reach_iff tr T _).1 h).inv S) hp u

/-- indirect_cxx14.h: where objects are stored does not matter.  Two runs from states with the same values, in which the environment
decides the same (but may choose other addresses), end with the same result and the same values. -/
theorem C73_cxx14_addresses_do_not_matter (S : tr.Sound) (h : Indirect14.Reach tr T s)
    (h' : Indirect14.Reach tr T s') (ha : abs s = abs s')
    (hp : Spec.Careful (Spec.estep14 tr T C) (Spec.ELegal14 tr) p (abs s)) {es es' : Nat → Env}
    (hl : Spec.luckOf (Indirect14.either tr T C) Env.choice p es s = Spec.luckOf (Indirect14.either tr T C) Env.choice p es' s') :
    Spec.EndAlike abs (p.run (Indirect14.either tr T C) es s) (p.run (Indirect14.either tr T C) es' s') := by
  rw [Conc.either14_eq] at *
  exact Conc.client_alike (Conc.queried14 tr T C S) p (((Indirect14.reach_iff tr T _).1 h).inv S) (((Indirect14.reach_iff tr T _).1 h').inv S) ha hp hl

/-- indirect_cxx14.h: nothing leaks and nothing is shared, whatever the client has done and caught. -/
theorem C73_cxx14_nothing_leaks (S : tr.Sound) (h : Indirect14.Reach tr T s)
    (hp : Spec.Careful (Spec.estep14 tr T C) (Spec.ELegal14 tr) p (abs s)) {es : Nat → Env} {a : α}
    (hr : p.run (Indirect14.either tr T C) es s = .ok a s') : Spec.OwnedOnce s' := by
  rw [Conc.either14_eq] at *
  exact Conc.client_owned (Conc.queried14 tr T C S) p (((Indirect14.reach_iff tr T _).1 h).inv S) hp hr

end

section
variable {L A R Ty V X α : Type} [DecidableEq L] [DecidableEq R] [DecidableEq Ty]
open Polymorphic
variable {tr : ATraits A R} {P : PSpec Ty V X} {s s' : St L A R (PBody Ty V)}
  {p : Client (POp L A Ty V X) (Out L A (Ty × V)) α}

/-- polymorphic.h: a client that never violates a precondition ends as it does on plain values; in particular it has no undefined
behaviour. -/
theorem C73_polymorphic_as_on_values (S : tr.Sound) (h : Polymorphic.Reach tr P s)
    (hp : Spec.Careful (Spec.pstep tr P) (Spec.PLegal tr) p (abs s)) (es : Nat → Env) :
    Spec.EndsAs abs (p.run (Polymorphic.call tr (plainP P)) es s)
      (Spec.runOn (Spec.pstep tr P) p (Spec.luckOf (Polymorphic.call tr (plainP P)) (fun e => e.choice 0) p es s) (abs s)) :=
  (Conc.client_run (Conc.polymorphic tr P S) p es s (⟨(h.sim S).1, (h.sim S).2.inv S⟩) hp).1

/-- polymorphic.h: no undefined behaviour. -/
theorem C73_polymorphic_no_undefined_behaviour (S : tr.Sound) (h : Polymorphic.Reach tr P s)
    (hp : Spec.Careful (Spec.pstep tr P) (Spec.PLegal tr) p (abs s)) (es : Nat → Env) (u : UB) :
    p.run (Polymorphic.call tr (plainP P)) es s ≠ .ub u :=
  Conc.client_no_ub (Conc.polymorphic tr P S) p (⟨(h.sim S).1, (h.sim S).2.inv S⟩) hp u

/-- polymorphic.h: where objects are stored does not matter.  Two runs from states with the same values, in which the environment
decides the same (but may choose other addresses), end with the same result and the same values. -/
theorem C73_polymorphic_addresses_do_not_matter (S : tr.Sound) (h : Polymorphic.Reach tr P s)
    (h' : Polymorphic.Reach tr P s') (ha : abs s = abs s')
    (hp : Spec.Careful (Spec.pstep tr P) (Spec.PLegal tr) p (abs s)) {es es' : Nat → Env}
    (hl : Spec.luckOf (Polymorphic.call tr (plainP P)) (fun e => e.choice 0) p es s = Spec.luckOf (Polymorphic.call tr (plainP P)) (fun e => e.choice 0) p es' s') :
    Spec.EndAlike abs (p.run (Polymorphic.call tr (plainP P)) es s) (p.run (Polymorphic.call tr (plainP P)) es' s') :=
  Conc.client_alike (Conc.polymorphic tr P S) p (⟨(h.sim S).1, (h.sim S).2.inv S⟩) (⟨(h'.sim S).1, (h'.sim S).2.inv S⟩) ha hp hl

/-- polymorphic.h: nothing leaks and nothing is shared, whatever the client has done and caught. -/
theorem C73_polymorphic_nothing_leaks (S : tr.Sound) (h : Polymorphic.Reach tr P s)
    (hp : Spec.Careful (Spec.pstep tr P) (Spec.PLegal tr) p (abs s)) {es : Nat → Env} {a : α}
    (hr : p.run (Polymorphic.call tr (plainP P)) es s = .ok a s') : Spec.OwnedOnce s' :=
  Conc.client_owned (Conc.polymorphic tr P S) p (⟨(h.sim S).1, (h.sim S).2.inv S⟩) hp hr

end

section
variable {L A R Ty V X α : Type} [DecidableEq L] [DecidableEq R] [DecidableEq Ty]
open Polymorphic
variable {tr : ATraits A R} {P : PSpec Ty V X} {s s' : St L A R (PBody Ty V)}
  {p : Client (POp L A Ty V X) (Out L A (Ty × V)) α}

/-- polymorphic_cxx14.h: a client that never violates a precondition ends as it does on plain values; in particular it has no undefined
behaviour. -/
theorem C73_polymorphic14_as_on_values (S : tr.Sound) (E : tr.Equality) (hq : tr.pocca = true → tr.alwaysEqual = true) (h : Polymorphic14.Reach tr P s)
    (hp : Spec.Careful (Spec.pstep14 tr P) (Spec.PLegal tr) p (abs s)) (es : Nat → Env) :
    Spec.EndsAs abs (p.run (Polymorphic14.call tr (plainP P)) es s)
      (Spec.runOn (Spec.pstep14 tr P) p (Spec.luckOf (Polymorphic14.call tr (plainP P)) (fun e => e.choice 0) p es s) (abs s)) :=
  (Conc.client_run (Conc.polymorphic14 tr P S E hq) p es s (Conc.ok14 S E hq h) hp).1

/-- polymorphic_cxx14.h: no undefined behaviour. -/
theorem C73_polymorphic14_no_undefined_behaviour (S : tr.Sound) (E : tr.Equality) (hq : tr.pocca = true → tr.alwaysEqual = true) (h : Polymorphic14.Reach tr P s)
    (hp : Spec.Careful (Spec.pstep14 tr P) (Spec.PLegal tr) p (abs s)) (es : Nat → Env) (u : UB) :
    p.run (Polymorphic14.call tr (plainP P)) es s ≠ .ub u :=
  Conc.client_no_ub (Conc.polymorphic14 tr P S E hq) p (Conc.ok14 S E hq h) hp u

/-- polymorphic_cxx14.h: where objects are stored does not matter.  Two runs from states with the same values, in which the environment
decides the same (but may choose other addresses), end with the same result and the same values. -/
theorem C73_polymorphic14_addresses_do_not_matter (S : tr.Sound) (E : tr.Equality) (hq : tr.pocca = true → tr.alwaysEqual = true) (h : Polymorphic14.Reach tr P s)
    (h' : Polymorphic14.Reach tr P s') (ha : abs s = abs s')
    (hp : Spec.Careful (Spec.pstep14 tr P) (Spec.PLegal tr) p (abs s)) {es es' : Nat → Env}
    (hl : Spec.luckOf (Polymorphic14.call tr (plainP P)) (fun e => e.choice 0) p es s = Spec.luckOf (Polymorphic14.call tr (plainP P)) (fun e => e.choice 0) p es' s') :
    Spec.EndAlike abs (p.run (Polymorphic14.call tr (plainP P)) es s) (p.run (Polymorphic14.call tr (plainP P)) es' s') :=
  Conc.client_alike (Conc.polymorphic14 tr P S E hq) p (Conc.ok14 S E hq h) (Conc.ok14 S E hq h') ha hp hl

/-- polymorphic_cxx14.h: nothing leaks and nothing is shared, whatever the client has done and caught. -/
theorem C73_polymorphic14_nothing_leaks (S : tr.Sound) (E : tr.Equality) (hq : tr.pocca = true → tr.alwaysEqual = true) (h : Polymorphic14.Reach tr P s)
    (hp : Spec.Careful (Spec.pstep14 tr P) (Spec.PLegal tr) p (abs s)) {es : Nat → Env} {a : α}
    (hr : p.run (Polymorphic14.call tr (plainP P)) es s = .ok a s') : Spec.OwnedOnce s' :=
  Conc.client_owned (Conc.polymorphic14 tr P S E hq) p (Conc.ok14 S E hq h) hp hr

end

/-! ## Examples -/

section
open Indirect
open Verif.Demo (alloc st st_reach)

/-- A client that decides by what it has seen: copy `y` to `x`; if that throws, try again, at most `n` times. -/
def retry {Q : Type} (x y : Nat) : Nat → Client (Either (Op Nat Nat Nat Nat) Q) (Out Nat Nat Nat) Nat
  | 0 => .ret 0
  | n + 1 => .call (.call (.copy x y)) fun
    | .ret _ => .ret (n + 1)
    | .exn _ => retry x y n

theorem careful_retry {Q : Type} {step : Bool → (Nat → Nat) → Spec.Boxes Nat Nat Nat → Either (Op Nat Nat Nat Nat) Q →
      Spec.Result Nat Nat Nat} {legal : Spec.Boxes Nat Nat Nat → Either (Op Nat Nat Nat Nat) Q → Prop}
    {tr : ATraits Nat Nat} {T : TSpec Nat Nat}
    (hs : ∀ m n σ o, step m n σ (.call o) = Spec.step tr T m (n 0) σ o)
    (hl : ∀ σ o, legal σ (.call o) = Spec.Legal tr σ o) {σ : Spec.Boxes Nat Nat Nat} {x y : Nat} (hx : Spec.Dead σ x)
    (hy : Spec.Live σ y) : ∀ n, Spec.Careful step legal (retry x y n) σ
  | 0 => trivial
  | n + 1 => by
    obtain ⟨b, hb⟩ := hy
    refine ⟨by rw [hl]; exact ⟨hx, b, hb⟩, fun m f => ?_⟩
    simp only [hs, Spec.step, hb, Spec.copyA]
    cases b.val with
    | none => trivial
    | some v =>
      cases hm : Spec.build m (T.copy v (f 0)) with
      | ok w => simp only [Spec.store, hm]; trivial
      | error e => simp only [Spec.store, hm]; exact careful_retry hs hl hx ⟨b, hb⟩ n

/-- There is no storage in the first two calls. -/
def meagre (i : Nat) : Env := { fail := fun _ => decide (i < 2), pick := fun j => 500 + 10 * i + j, choice := fun _ => 0 }

/-- The result, and the values of some objects. -/
def shown (xs : List Nat) : Res (St Nat Nat Nat (Obj Nat)) Nat → Option (Nat × List (Option Nat))
  | .ok a s => some (a, xs.map fun x => Spec.valueOf (abs s) x)
  | _ => none

/-- The hypotheses hold for five tries, the third of which succeeds. -/
example (C : TCmp Nat) : Indirect.Reach (alloc false false false) Demo.T (st false false false) ∧
    Spec.Careful (Spec.estep (alloc false false false) Demo.T C) (Spec.ELegal (alloc false false false)) (retry 9 1 5)
      (abs (st false false false)) ∧
    Spec.Careful (Spec.estep14 (alloc false false false) Demo.T C) (Spec.ELegal14 (alloc false false false)) (retry 9 1 5)
      (abs (st false false false)) :=
  ⟨st_reach _ _ _, careful_retry (fun _ _ _ _ => rfl) (fun _ _ => rfl) (by decide) ⟨⟨5, some 7⟩, by decide⟩ 5,
    careful_retry (T := Demo.T.cxx14) (fun _ _ _ _ => rfl) (fun _ _ => rfl) (by decide) ⟨⟨5, some 7⟩, by decide⟩ 5⟩

/-- Comparisons of numbers. -/
def natCmp : TCmp Nat where
  threeWay := none
  eq v w _ := .ok (v == w)
  ne v w _ := .ok (v != w)
  lt v w _ := .ok (decide (v < w))
  gt v w _ := .ok (decide (w < v))
  le v w _ := .ok (decide (v ≤ w))
  ge v w _ := .ok (decide (w ≤ v))
  hash v _ := .ok v
  npos := 999

example : shown [1, 9] ((retry 9 1 5).run (Indirect.either (alloc false false false) Demo.T natCmp) meagre
    (st false false false)) = some (3, [some 7, some 7]) := by decide +kernel

example : shown [1, 9] ((retry 9 1 5).run (Indirect14.either (alloc false false false) Demo.T natCmp) meagre
    (st false false false)) = some (3, [some 7, some 7]) := by decide +kernel

end

section
open Polymorphic
open Verif.Demo (alloc)
open Verif.PDemo (P)

/-- The same client for `polymorphic`. -/
def pretry (x y : Nat) : Nat → Client (POp Nat Nat Nat Nat Nat) (Out Nat Nat (Nat × Nat)) Nat
  | 0 => .ret 0
  | n + 1 => .call (.copy x y) fun
    | .ret _ => .ret (n + 1)
    | .exn _ => pretry x y n

theorem careful_pretry {tr : ATraits Nat Nat} {step : Bool → Nat → Spec.Boxes Nat Nat (Nat × Nat) →
      POp Nat Nat Nat Nat Nat → Spec.Result Nat Nat (Nat × Nat)}
    (hs : ∀ m n σ x y, step m n σ (.copy x y) = Spec.pstep tr P m n σ (.copy x y))
    {σ : Spec.Boxes Nat Nat (Nat × Nat)} {x y : Nat} (hx : Spec.Dead σ x) (hy : Spec.Live σ y) :
    ∀ n, Spec.Careful step (Spec.PLegal tr) (pretry x y n) σ
  | 0 => trivial
  | n + 1 => by
    obtain ⟨b, hb⟩ := hy
    refine ⟨⟨hx, b, hb⟩, fun m f => ?_⟩
    simp only [hs, Spec.pstep, hb, Spec.copyA]
    cases b.val with
    | none => trivial
    | some v =>
      cases hm : Spec.build m (P.owned.copy v f) with
      | ok w => simp only [Spec.store, hm]; trivial
      | error e => simp only [Spec.store, hm]; exact careful_pretry hs hx ⟨b, hb⟩ n

/-- The result, and the values of some objects with their types. -/
def pshown (xs : List Nat) : Res (St Nat Nat Nat (PBody Nat Nat)) Nat → Option (Nat × List (Option (Nat × Nat)))
  | .ok a s => some (a, xs.map fun x => Spec.valueOf (abs s) x)
  | _ => none

example : Polymorphic.Reach (alloc false false false) P (PDemo.st false false false) ∧
    Spec.Careful (Spec.pstep (alloc false false false) P) (Spec.PLegal (alloc false false false)) (pretry 9 1 5)
      (abs (PDemo.st false false false)) ∧
    Spec.Careful (Spec.pstep14 (alloc false false false) P) (Spec.PLegal (alloc false false false)) (pretry 9 1 5)
      (abs (PDemo.st false false false)) :=
  ⟨PDemo.st_reach _ _ _, careful_pretry (fun _ _ _ _ _ => rfl) (by decide) (by decide) 5,
    careful_pretry (fun _ _ _ _ _ => rfl) (by decide) (by decide) 5⟩

example : pshown [1, 9] ((pretry 9 1 5).run (Polymorphic.call (alloc false false false) (plainP P)) meagre
    (PDemo.st false false false)) = some (3, [some (1, 1007), some (1, 1007)]) := by decide +kernel

example : pshown [1, 9] ((pretry 9 1 5).run (Polymorphic14.call (alloc false false false) (plainP P)) meagre
    (PDemo.st false false false)) = some (3, [some (1, 1007), some (1, 1007)]) := by decide +kernel

end
end Verif.Props
