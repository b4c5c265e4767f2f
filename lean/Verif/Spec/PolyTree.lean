import Verif.PolyNode
import Verif.Spec.PBox
import Verif.Spec.NodeRun

/-!
# Specification of programs with recursive polymorphic nodes

The trees are those of `Verif/Spec/Tree.lean`; the payload of a node is the pair of its dynamic type and its value.
What statements do to trees is what the corresponding statements for `indirect` do (`Verif/Spec/World.lean`), if the owned
type copies and moves pairs by the operations of the dynamic type and is never assigned to (`PSpec.owned`).
-/

set_option autoImplicit false

namespace Verif
namespace PNode
open Verif

section
variable {N A R Ty V X : Type}

/-- In state `s`, an optional with contents `o` holds the tree `t`: the `polymorphic`s on the way have these pointers and
allocators, every node is alive in a block of the memory resource of its owner's allocator, has this dynamic type and
payload, and its control block points to it. -/
def Holds (res : A → R) (K : Nat) (s : PSt N A R Ty V) : Option (Handle A) → Tree A (Ty × V) → Prop
  | o, .absent => o = none
  | o, .hollow a => o = some ⟨none, a⟩
  | o, .node p a v ks =>
    o = some ⟨some p, a⟩ ∧ s.heap p = some ⟨res a, some ⟨v.1, some p, some v.2⟩⟩ ∧
      ∀ k, k < K → Holds res K s (s.hs (.field p k)) (ks k)

/-- In state `s` every variable holds its tree of `W`. -/
def Shows (res : A → R) (K : Nat) (W : N → Tree A (Ty × V)) (s : PSt N A R Ty V) : Prop :=
  ∀ x, Holds res K s (s.hs (.var x)) (W x)

/-- The corresponding statement on trees with `indirect` members. -/
def Stmt.asN : Stmt N A Ty X → Node.NOp N A (Ty × TArgs X)
  | .make p a ty us => .make p a [(ty, .pack us)]
  | .copy p q => .copy p q
  | .copyA p a q => .copyA p a q
  | .moveA p a q => .moveA p a q
  | .move p q => .move p q
  | .drop p => .drop p
  | .assign p q => .assign p q
  | .moveAssign p q => .moveAssign p q
  | .swap p q => .swap p q

/-- `w` has the dynamic type of `v` and is a copy made by the copy constructor of that type. -/
def Copied (P : PSpec Ty V X) (v w : Ty × V) : Prop := w.1 = v.1 ∧ ∃ c, P.copy v.1 v.2 c = .ok w.2

/-- `w` is `v`, or has its dynamic type and was made by the move constructor of that type. -/
def MovedTo (P : PSpec Ty V X) (v w : Ty × V) : Prop := w = v ∨ w.1 = v.1 ∧ ∃ c, (P.move v.1 v.2 c).1 = .ok w.2

variable [DecidableEq N] [DecidableEq R] [DecidableEq Ty]

/-- States reached from the empty state by statements that are legal where they are run; a statement may return or
throw. -/
inductive Reach (tr : ATraits A R) (P : PSpec Ty V X) (K : Nat) : PSt N A R Ty V → Prop
  | start (e : Env) : Reach tr P K (start e)
  | ok {s s' : PSt N A R Ty V} {W : N → Tree A (Ty × V)} {c : PCall N A Ty X} (h : Reach tr P K s)
      (hW : Shows tr.res K W s) (hL : Node.Legal tr K W c.depth c.op.asN) (hr : call tr P K c s = .ok () s') :
      Reach tr P K s'
  | threw {s s' : PSt N A R Ty V} {W : N → Tree A (Ty × V)} {c : PCall N A Ty X} {e : Exn} (h : Reach tr P K s)
      (hW : Shows tr.res K W s) (hL : Node.Legal tr K W c.depth c.op.asN) (hr : call tr P K c s = .threw e s') :
      Reach tr P K s'

end
end PNode
end Verif
