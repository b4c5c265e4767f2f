import Verif.Machine

/-!
# How deeply calls are nested

In the trace of the destruction of a recursive value, `destroy p` is recorded when the destructor of the node in block
`p` starts and `dealloc r p` when its storage is released, which is directly after that destructor has returned.  The
number of destructors that have started and not yet led to a release is therefore the number of frames of node
destructors on the call stack (with those of the destructors of `std::optional` and `indirect` between them).
-/

set_option autoImplicit false

namespace Verif.Spec
variable {R : Type}

/-- Largest number of destructors running at the same time in the rest of a trace, if `d` of them run now. -/
def nestingFrom (d : Nat) : List (Ev R) → Nat
  | [] => d
  | .destroy _ :: es => max d (nestingFrom (d + 1) es)
  | .dealloc _ _ :: es => max d (nestingFrom (d - 1) es)
  | _ :: es => nestingFrom d es

/-- Largest number of destructors running at the same time. -/
def nesting (es : List (Ev R)) : Nat := nestingFrom 0 es

end Verif.Spec
