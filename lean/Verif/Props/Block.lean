import Verif.Proofs.Block
import Verif.Props.Client
import Verif.Props.PolySafety
import Verif.Props.Polymorphic14

/-!
# C75: programs with local variables

`Block` is a program whose objects are local variables: constructed by a declaration, destroyed at the end of the block of that
declaration, however the block ends.  `Spec.Scoped` says that it is written that way, `Spec.InScope` that it follows rules that can
be checked on its text: variables are used in their scope, and the value of a variable is used only if it is not one of those
(`M`) that may have been moved from.
-/

set_option autoImplicit false
set_option linter.unusedSectionVars false

namespace Verif.Props
open Verif

section
variable {L A R V X α : Type} [DecidableEq L] [DecidableEq R]
open Indirect
variable {tr : ATraits A R} {T : TSpec V X} {C : TCmp V} {s s' : St L A R (Obj V)} {M : L → Prop}
  {b : Block (Either (Op L A V X) (Query L V)) (Out L A V) α} {r : Except Exn α} {es : Nat → Env}

/-- indirect.h: when a program has ended, whether by returning or by an exception thrown anywhere, exactly those objects are alive that
were when it began: its variables are gone. -/
theorem C75_locals_end (S : tr.Sound) (h : Indirect.Reach tr T s) (hb : Spec.Scoped Spec.elife b)
    (hc : Spec.Careful (Spec.estep tr T C) (Spec.ELegal tr) b.client (abs s)) (hr : b.client.run (Indirect.either tr T C) es s = .ok r s') (z : L) :
    Spec.Live (abs s') z ↔ Spec.Live (abs s) z := by
  rw [Conc.either_eq] at *
  exact Spec.live_congr (Conc.block_live (Conc.queried tr T C S) (Spec.estep_rules tr T C) (h.inv S) hb hc hr z)

/-- indirect.h: a program that begins with no objects leaves nothing behind, however it ends: all storage is free, every block
was freed and every owned object destroyed exactly as often as allocated and constructed, in an order that makes sense. -/
theorem C75_nothing_left (S : tr.Sound) (hb : Spec.Scoped Spec.elife b)
    (hc : Spec.Careful (Spec.estep tr T C) (Spec.ELegal tr) b.client (abs (St.init : St L A R (Obj V))))
    (hr : b.client.run (Indirect.either tr T C) es St.init = .ok r s') : Spec.AllGone s' := by
  rw [Conc.either_eq] at *
  have J := Conc.client_keeps (Conc.queried tr T C S) TraceOk (fun c e s I hl ht => Conc.either_traceOk tr T C c e s I hl ht) b.client
    (((Indirect.Reach.init (tr := tr) (T := T)).inv S)) hc (Indirect.Reach.init (tr := tr) (T := T)).traceOk hr
  have ok := (Conc.client_run (Conc.queried tr T C S) b.client es _ (((Indirect.Reach.init (tr := tr) (T := T)).inv S)) hc).2 _ _ hr
  exact Conc.gone_of tr ok J fun z => (Conc.block_live (Conc.queried tr T C S) (Spec.estep_rules tr T C) (((Indirect.Reach.init (tr := tr) (T := T)).inv S)) hb hc hr z).trans rfl

/-- indirect.h: with interchangeable allocators, a program that follows the rules violates no precondition, never terminates
abnormally, and ends with the same objects alive, none of which is valueless unless the rules allow it. -/
theorem C75_rules_suffice (S : tr.Sound) (hA : ∀ a b, tr.eq a b = true) (h : Indirect.Reach tr T s) (hF : Spec.Full M (abs s))
    (hb : Spec.InScope Spec.elife (Spec.euses Spec.qoperands) (Spec.ERespects M) (Spec.Live (abs s)) b) (es : Nat → Env) :
    Spec.Careful (Spec.estep tr T C) (Spec.ELegal tr) b.client (abs s) ∧
    ∃ r s', b.client.run (Indirect.either tr T C) es s = .ok r s' ∧ (∀ z, Spec.Live (abs s') z ↔ Spec.Live (abs s) z) ∧ Spec.Full M (abs s') := by
  rw [Conc.either_eq] at *
  obtain ⟨h1, r, s', h2, h3, h4⟩ := Conc.block_text (Conc.queried tr T C S) (Spec.estep_text tr T C M hA) b
    (h.inv S) hb (fun z => Option.isSome_iff_exists.symm) hF es
  exact ⟨h1, r, s', h2, fun z => Spec.live_congr (h3 z), h4⟩

/-- indirect.h: with interchangeable allocators, any program that follows the rules and begins with no objects returns or throws, and
leaves nothing behind; whatever storage runs out and whatever operations of owned types throw. -/
theorem C75_safe_programs (S : tr.Sound) (hA : ∀ a b, tr.eq a b = true)
    (hb : Spec.InScope Spec.elife (Spec.euses Spec.qoperands) (Spec.ERespects M) (fun _ => False) b) (es : Nat → Env) :
    ∃ r s', b.client.run (Indirect.either tr T C) es (St.init : St L A R (Obj V)) = .ok r s' ∧ Spec.AllGone s' := by
  have hL : Spec.Live (abs (St.init : St L A R (Obj V))) = fun _ => False := by
    funext z; simp [Spec.Live, abs, absWith, St.init]
  obtain ⟨h1, r, s', h2, -, -⟩ := C75_rules_suffice (s := St.init) (M := M) (T := T) (C := C) S hA .init
    (fun z b h => by simp [abs, absWith, St.init] at h) (hL ▸ hb) es
  exact ⟨r, s', h2, C75_nothing_left S (Spec.inScope_scoped b hb) h1 h2⟩

end

section
variable {L A R V X α : Type} [DecidableEq L] [DecidableEq R]
open Indirect
variable {tr : ATraits A R} {T : TSpec V X} {C : TCmp V} {s s' : St L A R (Obj V)} {M : L → Prop}
  {b : Block (Either (Op L A V X) (Query14 L V)) (Out L A V) α} {r : Except Exn α} {es : Nat → Env}

/-- indirect_cxx14.h: when a program has ended, whether by returning or by an exception thrown anywhere, exactly those objects are alive that
were when it began: its variables are gone. -/
theorem C75_cxx14_locals_end (S : tr.Sound) (h : Indirect14.Reach tr T s) (hb : Spec.Scoped Spec.elife b)
    (hc : Spec.Careful (Spec.estep14 tr T C) (Spec.ELegal14 tr) b.client (abs s)) (hr : b.client.run (Indirect14.either tr T C) es s = .ok r s') (z : L) :
    Spec.Live (abs s') z ↔ Spec.Live (abs s) z := by
  rw [Conc.either14_eq] at *
  exact Spec.live_congr (Conc.block_live (Conc.queried14 tr T C S) (Spec.estep14_rules tr T C) (((Indirect14.reach_iff tr T _).1 h).inv S) hb hc hr z)

/-- indirect_cxx14.h: a program that begins with no objects leaves nothing behind, however it ends: all storage is free, every block
was freed and every owned object destroyed exactly as often as allocated and constructed, in an order that makes sense. -/
theorem C75_cxx14_nothing_left (S : tr.Sound) (hb : Spec.Scoped Spec.elife b)
    (hc : Spec.Careful (Spec.estep14 tr T C) (Spec.ELegal14 tr) b.client (abs (St.init : St L A R (Obj V))))
    (hr : b.client.run (Indirect14.either tr T C) es St.init = .ok r s') : Spec.AllGone s' := by
  rw [Conc.either14_eq] at *
  have J := Conc.client_keeps (Conc.queried14 tr T C S) TraceOk (fun c e s I hl ht => Conc.either14_traceOk tr T C c e s I hl ht) b.client
    (((Indirect.Reach.init (tr := tr) (T := T)).inv S)) hc (Indirect.Reach.init (tr := tr) (T := T)).traceOk hr
  have ok := (Conc.client_run (Conc.queried14 tr T C S) b.client es _ (((Indirect.Reach.init (tr := tr) (T := T)).inv S)) hc).2 _ _ hr
  exact Conc.gone_of tr ok J fun z => (Conc.block_live (Conc.queried14 tr T C S) (Spec.estep14_rules tr T C) (((Indirect.Reach.init (tr := tr) (T := T)).inv S)) hb hc hr z).trans rfl

/-- indirect_cxx14.h: with interchangeable allocators, a program that follows the rules violates no precondition, never terminates
abnormally, and ends with the same objects alive, none of which is valueless unless the rules allow it. -/
theorem C75_cxx14_rules_suffice (S : tr.Sound) (hA : ∀ a b, tr.eq a b = true) (h : Indirect14.Reach tr T s) (hF : Spec.Full M (abs s))
    (hb : Spec.InScope Spec.elife (Spec.euses Spec.qoperands14) (Spec.ERespects M) (Spec.Live (abs s)) b) (es : Nat → Env) :
    Spec.Careful (Spec.estep14 tr T C) (Spec.ELegal14 tr) b.client (abs s) ∧
    ∃ r s', b.client.run (Indirect14.either tr T C) es s = .ok r s' ∧ (∀ z, Spec.Live (abs s') z ↔ Spec.Live (abs s) z) ∧ Spec.Full M (abs s') := by
  rw [Conc.either14_eq] at *
  obtain ⟨h1, r, s', h2, h3, h4⟩ := Conc.block_text (Conc.queried14 tr T C S) (Spec.estep14_text tr T C M hA) b
    (((Indirect14.reach_iff tr T _).1 h).inv S) hb (fun z => Option.isSome_iff_exists.symm) hF es
  exact ⟨h1, r, s', h2, fun z => Spec.live_congr (h3 z), h4⟩

/-- indirect_cxx14.h: with interchangeable allocators, any program that follows the rules and begins with no objects returns or throws, and
leaves nothing behind; whatever storage runs out and whatever operations of owned types throw. -/
theorem C75_cxx14_safe_programs (S : tr.Sound) (hA : ∀ a b, tr.eq a b = true)
    (hb : Spec.InScope Spec.elife (Spec.euses Spec.qoperands14) (Spec.ERespects M) (fun _ => False) b) (es : Nat → Env) :
    ∃ r s', b.client.run (Indirect14.either tr T C) es (St.init : St L A R (Obj V)) = .ok r s' ∧ Spec.AllGone s' := by
  have hL : Spec.Live (abs (St.init : St L A R (Obj V))) = fun _ => False := by
    funext z; simp [Spec.Live, abs, absWith, St.init]
  obtain ⟨h1, r, s', h2, -, -⟩ := C75_cxx14_rules_suffice (s := St.init) (M := M) (T := T) (C := C) S hA .init
    (fun z b h => by simp [abs, absWith, St.init] at h) (hL ▸ hb) es
  exact ⟨r, s', h2, C75_cxx14_nothing_left S (Spec.inScope_scoped b hb) h1 h2⟩

end

section
variable {L A R Ty V X α : Type} [DecidableEq L] [DecidableEq R] [DecidableEq Ty]
open Polymorphic
variable {tr : ATraits A R} {P : PSpec Ty V X} {s s' : St L A R (PBody Ty V)} {M : L → Prop}
  {b : Block (POp L A Ty V X) (Out L A (Ty × V)) α} {r : Except Exn α} {es : Nat → Env}

/-- polymorphic.h: when a program has ended, whether by returning or by an exception thrown anywhere, exactly those objects are alive that
were when it began: its variables are gone. -/
theorem C75_polymorphic_locals_end (S : tr.Sound) (h : Polymorphic.Reach tr P s) (hb : Spec.Scoped Spec.plife b)
    (hc : Spec.Careful (Spec.pstep tr P) (Spec.PLegal tr) b.client (abs s)) (hr : b.client.run (Polymorphic.call tr (plainP P)) es s = .ok r s') (z : L) :
    Spec.Live (abs s') z ↔ Spec.Live (abs s) z := by
  exact Spec.live_congr (Conc.block_live (Conc.polymorphic tr P S) (Spec.pstep_rules tr P) ⟨(h.sim S).1, (h.sim S).2.inv S⟩ hb hc hr z)

/-- polymorphic.h: a program that begins with no objects leaves nothing behind, however it ends: all storage is free, every block
was freed and every owned object destroyed exactly as often as allocated and constructed, in an order that makes sense. -/
theorem C75_polymorphic_nothing_left (S : tr.Sound) (hb : Spec.Scoped Spec.plife b)
    (hc : Spec.Careful (Spec.pstep tr P) (Spec.PLegal tr) b.client (abs (St.init : St L A R (PBody Ty V))))
    (hr : b.client.run (Polymorphic.call tr (plainP P)) es St.init = .ok r s') : Spec.AllGone s' := by
  have J := Conc.client_keeps (Conc.polymorphic tr P S) (Polymorphic.Reach tr P) (fun c e s _ hl j => ?_) b.client
    (⟨((Polymorphic.Reach.init (tr := tr) (P := P)).sim S).1, ((Polymorphic.Reach.init (tr := tr) (P := P)).sim S).2.inv S⟩) hc .init hr
  · have hd : ∀ z, Spec.Dead (abs s') z := fun z => by
      have := Conc.block_live (Conc.polymorphic tr P S) (Spec.pstep_rules tr P) (⟨((Polymorphic.Reach.init (tr := tr) (P := P)).sim S).1, ((Polymorphic.Reach.init (tr := tr) (P := P)).sim S).2.inv S⟩) hb hc hr z
      exact Option.not_isSome_iff_eq_none.1 (by rw [show (abs s' z).isSome = _ from this]; simp [Conc.polymorphic, abs, absWith, St.init])
    have := fun p => C32_no_leak S J hd p
    exact ⟨fun z => by have := hd z; simpa [Spec.Dead, abs, absWith] using this, fun p => (this p).1, C32_trace_follows_protocol S J, fun p => (this p).2⟩
  · show ((Polymorphic.call tr (plainP P)) c e s).All _
    cases ho : (Polymorphic.call tr (plainP P)) c e s with
    | ok o s' => exact .ret c e o j hl ho
    | threw x s' => exact .threw c e x j hl ho
    | _ => trivial

/-- polymorphic.h: with interchangeable allocators, a program that follows the rules violates no precondition, never terminates
abnormally, and ends with the same objects alive, none of which is valueless unless the rules allow it. -/
theorem C75_polymorphic_rules_suffice (S : tr.Sound) (hA : ∀ a b, tr.eq a b = true) (h : Polymorphic.Reach tr P s) (hF : Spec.Full M (abs s))
    (hb : Spec.InScope Spec.plife Spec.puses (Spec.PRespects M) (Spec.Live (abs s)) b) (es : Nat → Env) :
    Spec.Careful (Spec.pstep tr P) (Spec.PLegal tr) b.client (abs s) ∧
    ∃ r s', b.client.run (Polymorphic.call tr (plainP P)) es s = .ok r s' ∧ (∀ z, Spec.Live (abs s') z ↔ Spec.Live (abs s) z) ∧ Spec.Full M (abs s') := by
  obtain ⟨h1, r, s', h2, h3, h4⟩ := Conc.block_text (Conc.polymorphic tr P S) (Spec.pstep_text tr P M hA) b
    ⟨(h.sim S).1, (h.sim S).2.inv S⟩ hb (fun z => Option.isSome_iff_exists.symm) hF es
  exact ⟨h1, r, s', h2, fun z => Spec.live_congr (h3 z), h4⟩

/-- polymorphic.h: with interchangeable allocators, any program that follows the rules and begins with no objects returns or throws, and
leaves nothing behind; whatever storage runs out and whatever operations of owned types throw. -/
theorem C75_polymorphic_safe_programs (S : tr.Sound) (hA : ∀ a b, tr.eq a b = true)
    (hb : Spec.InScope Spec.plife Spec.puses (Spec.PRespects M) (fun _ => False) b) (es : Nat → Env) :
    ∃ r s', b.client.run (Polymorphic.call tr (plainP P)) es (St.init : St L A R (PBody Ty V)) = .ok r s' ∧ Spec.AllGone s' := by
  have hL : Spec.Live (abs (St.init : St L A R (PBody Ty V))) = fun _ => False := by
    funext z; simp [Spec.Live, abs, absWith, St.init]
  obtain ⟨h1, r, s', h2, -, -⟩ := C75_polymorphic_rules_suffice (s := St.init) (M := M) (P := P) S hA .init
    (fun z b h => by simp [abs, absWith, St.init] at h) (hL ▸ hb) es
  exact ⟨r, s', h2, C75_polymorphic_nothing_left S (Spec.inScope_scoped b hb) h1 h2⟩

end

section
variable {L A R Ty V X α : Type} [DecidableEq L] [DecidableEq R] [DecidableEq Ty]
open Polymorphic
variable {tr : ATraits A R} {P : PSpec Ty V X} {s s' : St L A R (PBody Ty V)} {M : L → Prop}
  {b : Block (POp L A Ty V X) (Out L A (Ty × V)) α} {r : Except Exn α} {es : Nat → Env}

/-- polymorphic_cxx14.h: when a program has ended, whether by returning or by an exception thrown anywhere, exactly those objects are alive that
were when it began: its variables are gone. -/
theorem C75_polymorphic14_locals_end (S : tr.Sound) (E : tr.Equality) (hq : tr.pocca = true → tr.alwaysEqual = true) (h : Polymorphic14.Reach tr P s) (hb : Spec.Scoped Spec.plife b)
    (hc : Spec.Careful (Spec.pstep14 tr P) (Spec.PLegal tr) b.client (abs s)) (hr : b.client.run (Polymorphic14.call tr (plainP P)) es s = .ok r s') (z : L) :
    Spec.Live (abs s') z ↔ Spec.Live (abs s) z := by
  exact Spec.live_congr (Conc.block_live (Conc.polymorphic14 tr P S E hq) (Spec.pstep14_rules tr P) (Conc.ok14 S E hq h) hb hc hr z)

/-- polymorphic_cxx14.h: a program that begins with no objects leaves nothing behind, however it ends: all storage is free, every block
was freed and every owned object destroyed exactly as often as allocated and constructed, in an order that makes sense. -/
theorem C75_polymorphic14_nothing_left (S : tr.Sound) (E : tr.Equality) (hq : tr.pocca = true → tr.alwaysEqual = true) (hb : Spec.Scoped Spec.plife b)
    (hc : Spec.Careful (Spec.pstep14 tr P) (Spec.PLegal tr) b.client (abs (St.init : St L A R (PBody Ty V))))
    (hr : b.client.run (Polymorphic14.call tr (plainP P)) es St.init = .ok r s') : Spec.AllGone s' := by
  have J := Conc.client_keeps (Conc.polymorphic14 tr P S E hq) (Polymorphic14.Reach tr P) (fun c e s _ hl j => ?_) b.client
    (Conc.ok14 S E hq .init) hc .init hr
  · have hd : ∀ z, Spec.Dead (abs s') z := fun z => by
      have := Conc.block_live (Conc.polymorphic14 tr P S E hq) (Spec.pstep14_rules tr P) (Conc.ok14 S E hq .init) hb hc hr z
      exact Option.not_isSome_iff_eq_none.1 (by rw [show (abs s' z).isSome = _ from this]; simp [Conc.polymorphic14, Conc.polymorphic, abs, absWith, St.init])
    have := fun p => C55_no_leak S E hq J hd p
    exact ⟨fun z => by have := hd z; simpa [Spec.Dead, abs, absWith] using this, fun p => (this p).1, C32_trace_follows_protocol S (Polymorphic14.reach_of E hq J), fun p => (this p).2⟩
  · show ((Polymorphic14.call tr (plainP P)) c e s).All _
    cases ho : (Polymorphic14.call tr (plainP P)) c e s with
    | ok o s' => exact .ret c e o j hl ho
    | threw x s' => exact .threw c e x j hl ho
    | _ => trivial

/-- polymorphic_cxx14.h: with interchangeable allocators, a program that follows the rules violates no precondition, never terminates
abnormally, and ends with the same objects alive, none of which is valueless unless the rules allow it. -/
theorem C75_polymorphic14_rules_suffice (S : tr.Sound) (E : tr.Equality) (hq : tr.pocca = true → tr.alwaysEqual = true) (hA : ∀ a b, tr.eq a b = true) (h : Polymorphic14.Reach tr P s) (hF : Spec.Full M (abs s))
    (hb : Spec.InScope Spec.plife Spec.puses (Spec.PRespects M) (Spec.Live (abs s)) b) (es : Nat → Env) :
    Spec.Careful (Spec.pstep14 tr P) (Spec.PLegal tr) b.client (abs s) ∧
    ∃ r s', b.client.run (Polymorphic14.call tr (plainP P)) es s = .ok r s' ∧ (∀ z, Spec.Live (abs s') z ↔ Spec.Live (abs s) z) ∧ Spec.Full M (abs s') := by
  obtain ⟨h1, r, s', h2, h3, h4⟩ := Conc.block_text (Conc.polymorphic14 tr P S E hq) (Spec.pstep14_text tr P M hA) b
    (Conc.ok14 S E hq h) hb (fun z => Option.isSome_iff_exists.symm) hF es
  exact ⟨h1, r, s', h2, fun z => Spec.live_congr (h3 z), h4⟩

/-- polymorphic_cxx14.h: with interchangeable allocators, any program that follows the rules and begins with no objects returns or throws, and
leaves nothing behind; whatever storage runs out and whatever operations of owned types throw. -/
theorem C75_polymorphic14_safe_programs (S : tr.Sound) (E : tr.Equality) (hq : tr.pocca = true → tr.alwaysEqual = true) (hA : ∀ a b, tr.eq a b = true)
    (hb : Spec.InScope Spec.plife Spec.puses (Spec.PRespects M) (fun _ => False) b) (es : Nat → Env) :
    ∃ r s', b.client.run (Polymorphic14.call tr (plainP P)) es (St.init : St L A R (PBody Ty V)) = .ok r s' ∧ Spec.AllGone s' := by
  have hL : Spec.Live (abs (St.init : St L A R (PBody Ty V))) = fun _ => False := by
    funext z; simp [Spec.Live, abs, absWith, St.init]
  obtain ⟨h1, r, s', h2, -, -⟩ := C75_polymorphic14_rules_suffice (s := St.init) (M := M) (P := P) S E hq hA .init
    (fun z b h => by simp [abs, absWith, St.init] at h) (hL ▸ hb) es
  exact ⟨r, s', h2, C75_polymorphic14_nothing_left S E hq (Spec.inScope_scoped b hb) h1 h2⟩

end

/-! ## Examples -/

section
open Indirect
open Verif.Demo (std std_sound)

/-- What came out of a block is passed on. -/
def pass {C O α : Type} : Except Exn α → Block C O α
  | .ok a => .ret a
  | .error e => .throw e

/-- `indirect<int> x(7); { indirect<int> y(x); *y = *y + 1; if (x == y) throw; indirect<int> z(std::move(w)); } return *x;` with
`indirect<int> w(2);`: objects 1, 2, 3 and 4 are x, y, z and w.  An exception of the inner block is caught, and the result is then 0. -/
def scopes : Block (Either (Op Nat Unit Nat Nat) (Query Nat Nat)) (Out Nat Unit Nat) Nat :=
  .declare (.call (.make 1 none (.inPlace [7]))) (.call (.destroy 1))
    (.declare (.call (.make 4 none (.inPlace [2]))) (.call (.destroy 4))
      (.declare (.call (.copy 2 1)) (.call (.destroy 2))
        (.call (.call (.modify 2 (· + 1))) fun
          | .exn e => .throw e
          | .ret _ => .call (.query (.eq 1 2)) fun
            | .ret (.bool false) => .declare (.call (.move 3 4)) (.call (.destroy 3)) (.ret 5) pass
            | _ => .throw (.user 1))
        fun
          | .ok _ => .call (.call (.deref 1)) fun
            | .ret (.value v) => .ret v
            | _ => .throw (.user 2)
          | .error _ => .ret 0)
      pass)
    pass

theorem pass_inScope {L C O α : Type} {life : C → Spec.Life L} {uses : C → List L} {respects : C → Prop} {Γ : L → Prop}
    (r : Except Exn α) : Spec.InScope life uses respects Γ (pass r : Block C O α) := by
  cases r <;> trivial

theorem scopes_inScope : Spec.InScope Spec.elife (Spec.euses Spec.qoperands) (Spec.ERespects (fun z => z = 3 ∨ z = 4))
    (fun _ => False) scopes := by
  refine ⟨1, rfl, rfl, id, by simp [Spec.euses, Spec.uses], by simp [Spec.ERespects, Spec.Respects],
    by simp [Spec.ERespects, Spec.Respects], ⟨4, rfl, rfl, by simp, by simp [Spec.euses, Spec.uses],
      by simp [Spec.ERespects, Spec.Respects], by simp [Spec.ERespects, Spec.Respects], ⟨2, rfl, rfl, by simp,
        by simp [Spec.euses, Spec.uses], by simp [Spec.ERespects, Spec.Respects], by simp [Spec.ERespects, Spec.Respects],
        ⟨rfl, by simp [Spec.euses, Spec.uses, Spec.operands], by simp [Spec.ERespects, Spec.Respects], fun o => ?_⟩, fun r => ?_⟩,
      pass_inScope⟩, pass_inScope⟩
  · rcases o with _ | _
    · refine ⟨rfl, by simp [Spec.euses, Spec.qoperands], trivial, fun o => ?_⟩
      rcases o with o | _
      · cases o with
        | bool b =>
          cases b
          · exact ⟨3, rfl, rfl, by simp, by simp [Spec.euses, Spec.uses], by simp [Spec.ERespects, Spec.Respects],
              by simp [Spec.ERespects, Spec.Respects], trivial, pass_inScope⟩
          · trivial
        | _ => trivial
      · trivial
    · trivial
  · cases r with
    | error e => trivial
    | ok a =>
      refine ⟨rfl, by simp [Spec.euses, Spec.uses, Spec.operands], by simp [Spec.ERespects, Spec.Respects], fun o => ?_⟩
      rcases o with o | _
      · cases o <;> trivial
      · trivial

/-- The hypotheses hold for this program. -/
example : std.Sound ∧ (∀ a b, std.eq a b = true) ∧ Spec.Scoped Spec.elife scopes ∧
    Spec.Careful (Spec.estep std Demo.T natCmp) (Spec.ELegal std) scopes.client (abs (St.init : St Nat Unit Unit (Obj Nat))) := by
  refine ⟨std_sound, fun _ _ => rfl, Spec.inScope_scoped _ scopes_inScope, ?_⟩
  have hL : Spec.Live (abs (St.init : St Nat Unit Unit (Obj Nat))) = fun _ => False := by
    funext z; simp [Spec.Live, abs, absWith, St.init]
  exact (C75_rules_suffice (T := Demo.T) std_sound (fun _ _ => rfl) .init (M := fun z => z = 3 ∨ z = 4)
    (fun z b h => by simp [abs, absWith, St.init] at h) (hL ▸ scopes_inScope) (fun _ => Demo.fine 1)).1

/-- The result. -/
def result {σ : Type} : Res σ (Except Exn Nat) → Option (Nat ⊕ Unit)
  | .ok (.ok n) _ => some (.inl n)
  | .ok (.error _) _ => some (.inr ())
  | _ => none

/-- With enough storage it returns 7; if the copy of `x` fails, 0; if `x` cannot be allocated, it throws. -/
example : result (scopes.client.run (Indirect.either std Demo.T natCmp) (fun i => Demo.fine (10 * i)) St.init) = some (.inl 7) ∧
    result (scopes.client.run (Indirect.either std Demo.T natCmp)
      (fun i => { Demo.fine (10 * i) with fail := fun _ => i == 2 }) St.init) = some (.inl 0) ∧
    result (scopes.client.run (Indirect.either std Demo.T natCmp)
      (fun i => { Demo.fine (10 * i) with fail := fun _ => i == 0 }) St.init) = some (.inr ()) := by decide +kernel

/-- The rules are needed: `indirect<int> x(7); indirect<int> y(std::move(x)); *x`. -/
def reckless : Block (Either (Op Nat Unit Nat Nat) (Query Nat Nat)) (Out Nat Unit Nat) Nat :=
  .declare (.call (.make 1 none (.inPlace [7]))) (.call (.destroy 1))
    (.declare (.call (.move 2 1)) (.call (.destroy 2)) (.call (.call (.deref 1)) fun _ => .ret 0) pass) pass

def undefined {σ α : Type} : Res σ α → Bool
  | .ub _ => true
  | _ => false

example : undefined (reckless.client.run (Indirect.either std Demo.T natCmp) (fun i => Demo.fine (10 * i)) St.init) = true := by
  decide +kernel

end

section
open Polymorphic
open Verif.Demo (std std_sound)
open Verif.PDemo (P)

/-- `polymorphic<Base> x(std::in_place_type<D>, 7); polymorphic<Base> y(x); swap(x, y);` -/
def pscopes : Block (POp Nat Unit Nat Nat Nat) (Out Nat Unit (Nat × Nat)) Bool :=
  .declare (.make 1 none (.inPlace 1 [7])) (.destroy 1)
    (.declare (.copy 2 1) (.destroy 2) (.call (.swap 1 2) fun _ => .ret true) pass) pass

theorem pscopes_inScope : Spec.InScope Spec.plife Spec.puses (Spec.PRespects (fun _ => False)) (fun _ => False) pscopes :=
  ⟨1, rfl, rfl, id, by simp [Spec.puses], trivial, trivial, ⟨2, rfl, rfl, by simp, by simp [Spec.puses], id, trivial,
    ⟨rfl, by simp [Spec.puses, Spec.poperands], Iff.rfl, fun _ => trivial⟩, pass_inScope⟩, pass_inScope⟩

/-- The hypotheses hold for this program. -/
example : std.Sound ∧ std.Equality ∧ (∀ a b, std.eq a b = true) ∧ (std.pocca = true → std.alwaysEqual = true) ∧
    Spec.Scoped Spec.plife pscopes ∧
    Spec.Careful (Spec.pstep std P) (Spec.PLegal std) pscopes.client (abs (St.init : St Nat Unit Unit (PBody Nat Nat))) := by
  refine ⟨std_sound, ⟨fun _ => rfl, fun _ _ _ => rfl⟩, fun _ _ => rfl, fun _ => rfl, Spec.inScope_scoped _ pscopes_inScope, ?_⟩
  have hL : Spec.Live (abs (St.init : St Nat Unit Unit (PBody Nat Nat))) = fun _ => False := by
    funext z; simp [Spec.Live, abs, absWith, St.init]
  exact (C75_polymorphic_rules_suffice (P := P) std_sound (fun _ _ => rfl) .init (M := fun _ => False)
    (fun z b h => by simp [abs, absWith, St.init] at h) (hL ▸ pscopes_inScope) (fun _ => Demo.fine 1)).1

end

end Verif.Props
