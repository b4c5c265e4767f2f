import Verif.Spec.Node14
import Verif.PNDemo

/-!
# Concrete trees with polymorphic_cxx14.h

As `Verif/PNDemo.lean`.  Nothing here is used by a proof of a general theorem.
-/

set_option autoImplicit false

namespace Verif
namespace PNDemo14
open PNode
open PNDemo (S trees)
open NDemo (Var at' from')

section
variable (tr : ATraits Nat Nat) (K : Nat)

instance (W : Var → Tree Nat (Nat × Nat)) (o : Stmt Var Nat Nat Nat) : Decidable (PNode14.Safe14 tr W o) := by
  cases o <;> unfold PNode14.Safe14 <;> infer_instance

/-- Run a program, checking that every statement is legal where it is run. -/
def run : List (PCall Var Nat Nat Nat) → S → Option S
  | [], s => some s
  | c :: cs, s =>
    if Shows tr.res K (trees s) s ∧ Node.Legal tr K (trees s) c.depth c.op.asN ∧ PNode14.Safe14 tr (trees s) c.op then
      match PNode14.call tr PDemo.P K c s with
      | .ok _ s' => run cs s'
      | .threw _ s' => run cs s'
      | _ => none
    else none

theorem reach_run : ∀ (cs : List (PCall Var Nat Nat Nat)) {s s' : S}, PNode14.Reach tr PDemo.P K s →
    run tr K cs s = some s' → PNode14.Reach tr PDemo.P K s'
  | [], s, s', h, e => by cases e; exact h
  | c :: cs, s, s', h, e => by
    unfold run at e
    split at e
    · rename_i hc
      split at e
      · rename_i hr; exact reach_run cs (.ok h hc.1 hc.2.1 hc.2.2 hr) e
      · rename_i hr; exact reach_run cs (.threw h hc.1 hc.2.1 hc.2.2 hr) e
      · exact nomatch e
    · exact nomatch e

/-- The state after a program. -/
def after (cs : List (PCall Var Nat Nat Nat)) : S := (run tr K cs (start (Demo.fine 0))).getD (start (Demo.fine 0))

theorem reach (cs : List (PCall Var Nat Nat Nat)) : PNode14.Reach tr PDemo.P K (after tr K cs) := by
  unfold after
  cases e : run tr K cs (start (Demo.fine 0)) with
  | none => exact .start _
  | some s => exact reach_run tr K cs (.start _) e

end

/-- Allocators that propagate on copy assignment. -/
abbrev trP := Demo.alloc true false false

/-- The tree of `Verif/PNDemo.lean`, with such allocators. -/
def s0 : S := after trP 2 PNDemo.build

/-- Move the whole tree to variable 1, with allocator 8. -/
def move : PCall Var Nat Nat Nat := ⟨.moveA (at' 1 []) 8 (at' 0 []), 3, from' 200⟩

/-- Destroy what is in variable 1. -/
def drop : PCall Var Nat Nat Nat := ⟨.drop (at' 1 []), 3, from' 300⟩

end PNDemo14
end Verif
