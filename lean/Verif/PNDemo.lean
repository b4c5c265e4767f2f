import Verif.Spec.PolyTree
import Verif.NDemo
import Verif.PDemo

/-!
# Concrete trees of polymorphic nodes

Small programs, used beside the theorems to show that their hypotheses can be met, and for the counterexamples.  Nothing
here is used by a proof of a general theorem.
-/

set_option autoImplicit false

namespace Verif
namespace PNode
variable {N A R Ty V X : Type} [DecidableEq N] [DecidableEq A] [DecidableEq R] [DecidableEq Ty] [DecidableEq V] {K : Nat}

instance decHolds (res : A → R) (s : PSt N A R Ty V) :
    (o : Option (Handle A)) → (t : Tree A (Ty × V)) → Decidable (Holds res K s o t)
  | o, .absent => inferInstanceAs (Decidable (o = none))
  | o, .hollow a => inferInstanceAs (Decidable (o = some ⟨none, a⟩))
  | o, .node p a v ks =>
    have : ∀ k, Decidable (Holds res K s (s.hs (.field p k)) (ks k)) := fun k => decHolds res s _ (ks k)
    inferInstanceAs (Decidable (o = some ⟨some p, a⟩ ∧ s.heap p = some ⟨res a, some ⟨v.1, some p, some v.2⟩⟩ ∧
      ∀ k, k < K → Holds res K s (s.hs (.field p k)) (ks k)))

end PNode

namespace PNDemo
open PNode
open NDemo (Var at' from' short throws)

/-- States with two variables, numbered allocators and types, and numbers as payloads. -/
abbrev S := PSt Var Nat Nat Nat Nat

instance (W : Var → Tree Nat (Nat × Nat)) (s : S) (res : Nat → Nat) (K : Nat) : Decidable (Shows res K W s) :=
  inferInstanceAs (Decidable (∀ x : Fin 2, Holds _ _ _ _ _))

/-- Read a tree of depth at most `n` from a state. -/
def read (s : S) : Nat → Option (Handle Nat) → Tree Nat (Nat × Nat)
  | _, none => .absent
  | _, some ⟨none, a⟩ => .hollow a
  | 0, some ⟨some _, a⟩ => .hollow a
  | n + 1, some ⟨some p, a⟩ =>
    match s.heap p with
    | some ⟨_, some ⟨ty, _, some v⟩⟩ => .node p a (ty, v) (fun k => read s n (s.hs (.field p k)))
    | _ => .hollow a

/-- The trees of all variables. -/
def trees (s : S) : Var → Tree Nat (Nat × Nat) := fun x => read s 8 (s.hs (.var x))

section
variable (tr : ATraits Nat Nat) (K : Nat)

/-- Run a program, checking that every statement is legal where it is run. -/
def run : List (PCall Var Nat Nat Nat) → S → Option S
  | [], s => some s
  | c :: cs, s =>
    if Shows tr.res K (trees s) s ∧ Node.Legal tr K (trees s) c.depth c.op.asN then
      match call tr PDemo.P K c s with
      | .ok _ s' => run cs s'
      | .threw _ s' => run cs s'
      | _ => none
    else none

theorem reach_run : ∀ (cs : List (PCall Var Nat Nat Nat)) {s s' : S}, Reach tr PDemo.P K s →
    run tr K cs s = some s' → Reach tr PDemo.P K s'
  | [], s, s', h, e => by cases e; exact h
  | c :: cs, s, s', h, e => by
    unfold run at e
    split at e
    · rename_i hc
      split at e
      · rename_i hr; exact reach_run cs (.ok h hc.1 hc.2 hr) e
      · rename_i hr; exact reach_run cs (.threw h hc.1 hc.2 hr) e
      · exact nomatch e
    · exact nomatch e

/-- The state after a program. -/
def after (cs : List (PCall Var Nat Nat Nat)) : S := (run tr K cs (start (Demo.fine 0))).getD (start (Demo.fine 0))

theorem reach (cs : List (PCall Var Nat Nat Nat)) : Reach tr PDemo.P K (after tr K cs) := by
  unfold after
  cases e : run tr K cs (start (Demo.fine 0)) with
  | none => exact .start _
  | some s => exact reach_run tr K cs (.start _) e

end

/-- A tree of four nodes of three types in variable 0, and a valueless `polymorphic` below the first member; variable 1 is
empty.  Two members per node. -/
def build : List (PCall Var Nat Nat Nat) := [
  ⟨.make (at' 0 []) 5 0 [7], 1, from' 100⟩,
  ⟨.make (at' 0 [0]) 5 1 [8], 1, from' 101⟩,
  ⟨.make (at' 0 [1]) 5 2 [9], 1, from' 102⟩,
  ⟨.make (at' 0 [0, 1]) 6 1 [4], 1, from' 103⟩,
  ⟨.move (at' 0 [1, 0]) (at' 0 [0, 1]), 0, from' 104⟩]

/-- The state with that tree, for allocators with the given traits. -/
def s0 (tr : ATraits Nat Nat) : S := after tr 2 build

/-- Allocators that never propagate. -/
abbrev tr0 := Demo.alloc false false false

theorem s0_reach (tr : ATraits Nat Nat) : Reach tr PDemo.P 2 (s0 tr) := reach tr 2 build

/-- The state after copying that tree into variable 1. -/
def s1 : S := after tr0 2 (build ++ [⟨.copy (at' 1 []) (at' 0 []), 3, from' 200⟩])

/-- How a call ends: 0 returns, 1 throws, 2 terminates, 3 undefined, 4 diverges. -/
def outcome (r : Res S Unit) : Nat :=
  match r with
  | .ok _ _ => 0
  | .threw _ _ => 1
  | .terminated => 2
  | .ub _ => 3
  | .diverged => 4

end PNDemo
end Verif
