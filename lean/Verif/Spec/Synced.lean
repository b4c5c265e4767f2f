import Verif.Synced
import Verif.Spec.Concurrent

/-!
# What it means that threads synchronise, and that calls happen as if one after the other
-/

set_option autoImplicit false

namespace Verif.Spec
open Verif

section
variable {Th L A R B Op V N : Type}

/-- The calls in the list can be made one after the other, without any concurrency, with the results that are noted there:
starting with the objects `σ`, on plain values; the objects are then as the second index says.  `step mem n` is what a call
does if storage is available (`mem`) or not, and the operations of the owned type end as `n` says. -/
inductive Serial (step : Bool → N → Boxes L A V → Op → Result L A V) (σ : Boxes L A V) :
    List (Ended Th Op (Verif.Out L A V)) → Boxes L A V → Prop
  | start : Serial step σ [] σ
  | ret {done : List (Ended Th Op (Verif.Out L A V))} {τ τ' : Boxes L A V} {out : Verif.Out L A V} (i : Th) (o : Op) (mem : Bool)
      (n : N) (h : Serial step σ done τ) (hc : step mem n τ o = .ret out τ') : Serial step σ (done ++ [⟨i, o, .ret out⟩]) τ'
  | threw {done : List (Ended Th Op (Verif.Out L A V))} {τ τ' : Boxes L A V} {x : Exn} (i : Th) (o : Op) (mem : Bool) (n : N)
      (h : Serial step σ done τ) (hc : step mem n τ o = .threw x τ') : Serial step σ (done ++ [⟨i, o, .exn x⟩]) τ'

/-- Two calls conflict: one of them changes an object that the other names. -/
def Conflict (operands changes : Op → List L) (o o' : Op) : Prop :=
  ∃ z, z ∈ operands o ∧ z ∈ changes o' ∨ z ∈ changes o ∧ z ∈ operands o'

variable [DecidableEq Th] [DecidableEq L] [DecidableEq R] [Body B]

/-- The threads synchronise: whenever a thread begins a call, no other thread is in a call that conflicts with it, and the
preconditions of the call hold of the values that the objects have then. -/
def Synchronised (prog : Op → Prog L A R B (Verif.Out L A V)) (legal : Boxes L A V → Op → Prop)
    (operands changes : Op → List L) (abs : St L A R B → Boxes L A V) (s : St L A R B) (evs : List (Event Th Op)) : Prop :=
  ∀ before i o e after c, evs = before ++ .start i o e :: after → Sys.exec prog before (Sys.start s) = .running c →
    c.run i = none →
    (∀ j o', c.run j = some o' → ¬ Conflict operands changes o o') ∧ legal (abs (c.conf.view i)) o

/-- The same, if the client reasons about the calls as if they were made one after the other: the preconditions of a call hold
in every state that the calls that have ended can lead to. -/
def SynchronisedSerially (prog : Op → Prog L A R B (Verif.Out L A V)) (step : Bool → N → Boxes L A V → Op → Result L A V)
    (legal : Boxes L A V → Op → Prop) (operands changes : Op → List L) (abs : St L A R B → Boxes L A V) (s : St L A R B)
    (evs : List (Event Th Op)) : Prop :=
  ∀ before i o e after c, evs = before ++ .start i o e :: after → Sys.exec prog before (Sys.start s) = .running c →
    c.run i = none →
    (∀ j o', c.run j = some o' → ¬ Conflict operands changes o o') ∧ ∀ σ, Serial step (abs s) c.done σ → legal σ o

/-- What thread `i` has seen of its calls. -/
def sawOf {Out : Type} (i : Th) (done : List (Ended Th Op Out)) : List (Seen Out) :=
  (done.filter fun d => decide (d.thread = i)).map (·.saw)

end
end Verif.Spec
