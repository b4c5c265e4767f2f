import Verif.Query
import Verif.PolymorphicOps

/-!
# What the `noexcept` operator says about the functions of the four headers

`Verif/Indirect.lean` and the other models of the headers have the effect of `noexcept`: an exception that gets out calls
`std::terminate`.  Here is what client code sees of it at compile time, for example `std::vector` when it decides whether to move or to
copy its elements.
-/

set_option autoImplicit false

namespace Verif.Noexcept

/-- The public functions.  `equal` and `compare` are `==` and `<=>` between two objects, `equalValue` and `compareValue` between an
object and a value. -/
inductive Fn where
  | make | copy | copyA | move | moveA | destroy | assignCopy | assignMove | assignFrom
  | deref | arrow | valueless | getAllocator | swap | friendSwap
  | equal | compare | equalValue | compareValue
  deriving DecidableEq, Repr

section
variable {A R : Type} (tr : ATraits A R)

/-- indirect.h: the constructors (:82-216), the destructor (:222, implicitly `noexcept`), the assignments (:228-305), the observers
(:311-345), `swap` (:351-371, the friend has the condition of the member), the operators (:375-426, none has a `noexcept`). -/
def indirect20 : Fn → Bool
  | .make | .copy | .copyA => false
  | .move => tr.alwaysEqual
  | .moveA => tr.alwaysEqual
  | .destroy => true
  | .assignCopy => false
  | .assignMove => tr.pocma || tr.alwaysEqual
  | .assignFrom => false
  | .deref | .arrow | .valueless | .getAllocator => true
  | .swap => tr.pocs || tr.alwaysEqual
  | .friendSwap => tr.pocs || tr.alwaysEqual
  | .equal | .compare | .equalValue | .compareValue => false

/-- indirect_cxx14.h: the constructors (:116-235), the destructor (:237), the assignments (:243-311), the observers (:317-351), `swap`
(:353-373), the operators (:376-546, none has a `noexcept`). -/
def indirect14 : Fn → Bool
  | .make | .copy | .copyA => false
  | .move => tr.alwaysEqual
  | .moveA => tr.alwaysEqual
  | .destroy => true
  | .assignCopy => false
  | .assignMove => tr.pocma || tr.alwaysEqual
  | .assignFrom => false
  | .deref | .arrow | .valueless | .getAllocator => true
  | .swap => tr.pocs || tr.alwaysEqual
  | .friendSwap => tr.pocs || tr.alwaysEqual
  | .equal | .compare | .equalValue | .compareValue => false

/-- polymorphic.h: the constructors (:130-267), the destructor (:273), the assignments (:279-337), the observers (:343-367), `swap`
(:373-393).  There is no assignment from a value and there are no operators; the table says `false` for them. -/
def polymorphic20 : Fn → Bool
  | .make | .copy | .copyA => false
  | .move => tr.alwaysEqual
  | .moveA => tr.alwaysEqual
  | .destroy => true
  | .assignCopy => false
  | .assignMove => tr.pocma || tr.alwaysEqual
  | .assignFrom => false
  | .deref | .arrow | .valueless | .getAllocator => true
  | .swap => tr.pocs || tr.alwaysEqual
  | .friendSwap => tr.pocs || tr.alwaysEqual
  | .equal | .compare | .equalValue | .compareValue => false

/-- polymorphic_cxx14.h: the constructors (:190-355; the move constructor is `noexcept` without a condition), the destructor (:357), the
assignments (:361-411), the observers (:417-441), `swap` (:443-463). -/
def polymorphic14 : Fn → Bool
  | .make | .copy | .copyA => false
  | .move => true
  | .moveA => tr.alwaysEqual
  | .destroy => true
  | .assignCopy => false
  | .assignMove => tr.pocma || tr.alwaysEqual
  | .assignFrom => false
  | .deref | .arrow | .valueless | .getAllocator => true
  | .swap => tr.pocs || tr.alwaysEqual
  | .friendSwap => tr.pocs || tr.alwaysEqual
  | .equal | .compare | .equalValue | .compareValue => false

end

section
variable {L A V X Ty : Type}

/-- The function that is called.  Writing to the owned object is client code. -/
def fn : Op L A V X → Option Fn
  | .make .. => some .make
  | .copy .. => some .copy
  | .copyA .. => some .copyA
  | .move .. => some .move
  | .moveA .. => some .moveA
  | .destroy _ => some .destroy
  | .assignCopy .. => some .assignCopy
  | .assignMove .. => some .assignMove
  | .assignFrom .. => some .assignFrom
  | .deref _ => some .deref
  | .arrow _ => some .arrow
  | .modify .. => none
  | .valueless _ => some .valueless
  | .getAllocator _ => some .getAllocator
  | .swap .. => some .swap
  | .friendSwap .. => some .friendSwap

/-- The same for `polymorphic`. -/
def fnP : POp L A Ty V X → Option Fn
  | .make .. => some .make
  | .copy .. => some .copy
  | .copyA .. => some .copyA
  | .move .. => some .move
  | .moveA .. => some .moveA
  | .destroy _ => some .destroy
  | .assignCopy .. => some .assignCopy
  | .assignMove .. => some .assignMove
  | .deref _ => some .deref
  | .arrow _ => some .arrow
  | .modify .. => none
  | .valueless _ => some .valueless
  | .getAllocator _ => some .getAllocator
  | .swap .. => some .swap
  | .friendSwap .. => some .friendSwap

end
end Verif.Noexcept
