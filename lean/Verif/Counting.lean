import Verif.Polymorphic

/-!
# Allocators with `construct` and `destroy` of their own

The headers construct and destroy through `std::allocator_traits` (indirect.h:447 and :457, indirect_cxx14.h:559 and :568,
polymorphic.h:80, :89, :101, :112 and :137, polymorphic_cxx14.h:135, :144, :156, :167 and :184), so an allocator sees these calls if it has
members `construct` and `destroy`.  `counting` and `countingP` are owned types with an allocator that records them, with its memory
resource.  Not code of /repo.
-/

set_option autoImplicit false

namespace Verif

section
variable {L A R B Ty X : Type} [DecidableEq L]

/-- `construct` and `destroy` construct and destroy, and record that they did. -/
def counting (tr : ATraits A R) (T : TOps (St L A R B) A X) : TOps (St L A R B) A X where
  make a dst xs := do
    T.make a dst xs
    emit (.custom .construct .object (tr.res a) dst)
  copyCtor a dst src := do
    T.copyCtor a dst src
    emit (.custom .construct .object (tr.res a) dst)
  moveCtor a dst src := do
    T.moveCtor a dst src
    emit (.custom .construct .object (tr.res a) dst)
  copyAssign := T.copyAssign
  moveAssign := T.moveAssign
  assignArg := T.assignArg
  dtor a p := do
    T.dtor a p
    emit (.custom .destroy .object (tr.res a) p)
  assignable := T.assignable
  copyAssignable := T.copyAssignable

/-- The same for `polymorphic`, which also constructs control blocks. -/
def countingP (tr : ATraits A R) (P : POps (St L A R B) A Ty X) : POps (St L A R B) A Ty X where
  base := P.base
  make ty a dst xs := do
    P.make ty a dst xs
    emit (.custom .construct .object (tr.res a) dst)
  copyCtor ty a dst src := do
    P.copyCtor ty a dst src
    emit (.custom .construct .object (tr.res a) dst)
  moveCtor ty a dst src := do
    P.moveCtor ty a dst src
    emit (.custom .construct .object (tr.res a) dst)
  dtor ty a q := do
    P.dtor ty a q
    emit (.custom .destroy .object (tr.res a) q)
  block a mem m := do
    P.block a mem m
    emit (.custom .construct .block (tr.res a) mem)

end
end Verif
