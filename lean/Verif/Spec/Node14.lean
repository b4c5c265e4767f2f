import Verif.Node14
import Verif.PolyNode14
import Verif.Spec.Indirect14
import Verif.Spec.NodeRun
import Verif.Spec.PolyTree

/-!
# Histories of programs with recursive nodes and the C++14 headers

As in `Verif/Spec/NodeRun.lean` and `Verif/Spec/PolyTree.lean`.
-/

set_option autoImplicit false

namespace Verif

namespace Node14
open Node
variable {N A R V X : Type} [DecidableEq N] [DecidableEq R]

/-- States reached from the empty state by statements that are legal where they are run; a statement may
return or throw. -/
inductive Reach (tr : ATraits A R) (T : TSpec V X) (K : Nat) : NSt N A R V → Prop
  | start (e : Env) : Reach tr T K (start e)
  | ok {s s' : NSt N A R V} {W : N → Tree A V} {c : NCall N A X} (h : Reach tr T K s)
      (hW : Shows tr.res K W s) (hL : Legal tr K W c.depth c.op) (hr : call tr T K c s = .ok () s') :
      Reach tr T K s'
  | threw {s s' : NSt N A R V} {W : N → Tree A V} {c : NCall N A X} {e : Exn} (h : Reach tr T K s)
      (hW : Shows tr.res K W s) (hL : Legal tr K W c.depth c.op) (hr : call tr T K c s = .threw e s') :
      Reach tr T K s'

end Node14

namespace PNode14
open PNode
variable {N A R Ty V X : Type} [DecidableEq N] [DecidableEq R] [DecidableEq Ty]

/-- What polymorphic_cxx14.h asks for in addition: the allocator-extended move constructor is given an allocator that
compares equal to that of the source, if allocators propagate on copy assignment (DESIGN.md, finding 3). -/
def Safe14 (tr : ATraits A R) (W : N → Tree A (Ty × V)) : Stmt N A Ty X → Prop
  | .moveA _ a q => tr.pocca = true → tr.eq a ((Node.treeAt W q).allocOr tr.dflt) = true
  | _ => True

/-- States reached from the empty state by statements that are legal where they are run; a statement may return or
throw. -/
inductive Reach (tr : ATraits A R) (P : PSpec Ty V X) (K : Nat) : PSt N A R Ty V → Prop
  | start (e : Env) : Reach tr P K (start e)
  | ok {s s' : PSt N A R Ty V} {W : N → Tree A (Ty × V)} {c : PCall N A Ty X} (h : Reach tr P K s)
      (hW : Shows tr.res K W s) (hL : Node.Legal tr K W c.depth c.op.asN) (hS : Safe14 tr W c.op)
      (hr : call tr P K c s = .ok () s') : Reach tr P K s'
  | threw {s s' : PSt N A R Ty V} {W : N → Tree A (Ty × V)} {c : PCall N A Ty X} {e : Exn} (h : Reach tr P K s)
      (hW : Shows tr.res K W s) (hL : Node.Legal tr K W c.depth c.op.asN) (hS : Safe14 tr W c.op)
      (hr : call tr P K c s = .threw e s') : Reach tr P K s'

end PNode14
end Verif
