import Verif.Vector
import Verif.Polymorphic14

/-!
# `polymorphic` of polymorphic_cxx14.h as a member, an alternative or an element

What enclosing classes, variants and vectors use of the types of the C++14 headers (indirect_test.cc, polymorphic_test.cc,
compile_checks are compiled with these headers too: indirect_test.cc:21, CMakeLists.txt).  `Holder.indirect14` is in
Composite.lean.
-/

set_option autoImplicit false

namespace Verif.Holder
section
variable {L A R V X Ty : Type} [DecidableEq L] [DecidableEq R] [DecidableEq Ty]

/-- Members of type `polymorphic<T, A>` of polymorphic_cxx14.h.  The move constructor is noexcept without a condition
(polymorphic_cxx14.h:353). -/
def polymorphic14 (tr : ATraits A R) (P : PSpec Ty V X) :
    Holder L (St L A R (PBody Ty V)) (Ty × V) (Option A × Option Ty × TArgs X) (Ty → V → V) where
  make x i e := ofCall (Polymorphic14.call tr (plainP P) (.make x i.1 (pctorOf i.2.1 i.2.2)) e)
  copy x y e := ofCall (Polymorphic14.call tr (plainP P) (.copy x y) e)
  move x y e := ofCall (Polymorphic14.call tr (plainP P) (.move x y) e)
  assignCopy x y e := ofCall (Polymorphic14.call tr (plainP P) (.assignCopy x y) e)
  assignMove x y e := ofCall (Polymorphic14.call tr (plainP P) (.assignMove x y) e)
  destroy x e := ofCall (Polymorphic14.call tr (plainP P) (.destroy x) e)
  modify x f e := ofCall (Polymorphic14.call tr (plainP P) (.modify x f) e)
  app f w := (w.1, f w.1 w.2)
  nothrowMove := true

/-- `indirect<T, A>` of indirect_cxx14.h in a vector that passes its allocator `α` on to elements; constructors with
`std::allocator_arg`: indirect_cxx14.h:138-230. -/
def indirect14In (α : A) (tr : ATraits A R) (T : TSpec V X) : Holder L (St L A R (Obj V)) V (TArgs X) (V → V) where
  make x i e := ofCall (Indirect14.call tr (plain T) (.make x (some α) (ctorOf i)) e)
  copy x y e := ofCall (Indirect14.call tr (plain T) (.copyA x α y) e)
  move x y e := ofCall (Indirect14.call tr (plain T) (.moveA x α y) e)
  assignCopy x y e := ofCall (Indirect14.call tr (plain T) (.assignCopy x y) e)
  assignMove x y e := ofCall (Indirect14.call tr (plain T) (.assignMove x y) e)
  destroy x e := ofCall (Indirect14.call tr (plain T) (.destroy x) e)
  modify x f e := ofCall (Indirect14.call tr (plain T) (.modify x f) e)
  app f v := f v
  nothrowMove := tr.alwaysEqual

/-- `polymorphic<T, A>` of polymorphic_cxx14.h in such a vector; constructors with `std::allocator_arg`:
polymorphic_cxx14.h:192-352. -/
def polymorphic14In (α : A) (tr : ATraits A R) (P : PSpec Ty V X) :
    Holder L (St L A R (PBody Ty V)) (Ty × V) (Option Ty × TArgs X) (Ty → V → V) where
  make x i e := ofCall (Polymorphic14.call tr (plainP P) (.make x (some α) (pctorOf i.1 i.2)) e)
  copy x y e := ofCall (Polymorphic14.call tr (plainP P) (.copyA x α y) e)
  move x y e := ofCall (Polymorphic14.call tr (plainP P) (.moveA x α y) e)
  assignCopy x y e := ofCall (Polymorphic14.call tr (plainP P) (.assignCopy x y) e)
  assignMove x y e := ofCall (Polymorphic14.call tr (plainP P) (.assignMove x y) e)
  destroy x e := ofCall (Polymorphic14.call tr (plainP P) (.destroy x) e)
  modify x f e := ofCall (Polymorphic14.call tr (plainP P) (.modify x f) e)
  app f w := (w.1, f w.1 w.2)
  nothrowMove := true

end
end Verif.Holder
