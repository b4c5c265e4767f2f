import Verif.Composite
import Verif.Compare

/-!
# `std::variant` with `indirect` or `polymorphic` alternatives

`compile_checks/indirect_in_variant.cc:17` and `compile_checks/polymorphic_in_variant.cc:17` have a member
`std::variant<Number, xyz::indirect<BinOp>>` resp. `std::variant<Number, xyz::polymorphic<BinOp>>`.  This file models
such a variant, with one alternative of an arbitrary type without indirect members, and any number of alternatives of
types `indirect<…>` or `polymorphic<…>`.

Modelled are the rules of the C++ standard for `std::variant` ([variant.ctor], [variant.dtor], [variant.assign],
[variant.mod]).  Each member function of an alternative is the unchanged definition from the model of the header.
How `variant` assigns depends on whether constructors are noexcept: the copy constructors of `indirect` and `polymorphic`
are not (indirect.h:129, polymorphic.h:189), the move constructors only for some allocators (`Holder.nothrowMove`).
Simplifications: all indirect alternatives have the same allocator type; member functions run in an environment each;
`swap` and converting assignment of `variant` are not modelled.
-/

set_option autoImplicit false

namespace Verif.Variant
open Verif

/-- What is at a location: no variant, or a variant that is valueless by exception, or holds an object of the first
alternative, or of the `k`-th indirect alternative. -/
inductive Slot (N : Type) where
  | dead
  | valueless
  | plain (v : N)
  | held (k : Nat)
  deriving DecidableEq

section
variable {C S W I F N Y : Type} [DecidableEq C]

/-- Machine state: the state of the indirect alternatives (alternative `k` of variant `x` is at `(x, k)`), and the
variants. -/
abbrev VS (C S N : Type) := S × (C → Slot N)

def look (x : C) : M (VS C S N) (Slot N) := fun s => .ok (s.2 x) s

def set (x : C) (a : Slot N) : M (VS C S N) Unit := fun s => .ok () (s.1, upd s.2 x a)

/-- The first alternative is constructed. -/
def finishPlain (x : C) : Except Exn N → M (VS C S N) Unit
  | .ok v => set x (.plain v)
  | .error e => M.throwE e

/-- A type without indirect members, and whether its copy and move constructors are noexcept. -/
structure Plain (N Y : Type) where
  ops : TSpec N Y
  /-- `std::is_nothrow_copy_constructible` -/
  nothrowCopy : Bool
  /-- `std::is_nothrow_move_constructible` -/
  nothrowMove : Bool

variable (H : Composite.Members C S W I F) (P : Plain N Y)

/-- The object that `x` holds is destroyed ([variant.dtor], and first step of `emplace`). -/
def clearSlot (x : C) (e : Env) : Slot N → M (VS C S N) Unit
  | .held k => do
    M.fst ((H k).destroy (x, k) e)
    set x .valueless
  | .plain _ => set x .valueless
  | .valueless => pure ()
  | .dead => M.undef .deadObject

def clear (x : C) (e : Env) : M (VS C S N) Unit := look x >>= clearSlot H x e

/-- An object of the alternative that `y` holds is copy-constructed in `x`. -/
def copyInto (x y : C) (e : Env) : M (VS C S N) Unit := look y >>= fun
  | .held k => do
    M.fst ((H k).copy (x, k) (y, k) e)
    set x (.held k)
  | .plain v => M.noexceptIf P.nothrowCopy (finishPlain x (P.ops.copy v (e.choice 0)))
  | .valueless => set x .valueless
  | .dead => M.undef .deadObject

/-- An object of the alternative that `y` holds is move-constructed in `x`. -/
def moveInto (x y : C) (e : Env) : M (VS C S N) Unit := look y >>= fun
  | .held k => do
    M.fst ((H k).move (x, k) (y, k) e)
    set x (.held k)
  | .plain v => do
    set y (.plain (P.ops.move v (e.choice 0)).2)
    M.noexceptIf P.nothrowMove (finishPlain x (P.ops.move v (e.choice 0)).1)
  | .valueless => set x .valueless
  | .dead => M.undef .deadObject

/-- The storage of `x` is free. -/
def unborn (x : C) : M (VS C S N) Unit := look x >>= fun
  | .dead => pure ()
  | _ => M.undef .liveHandle

/-- [variant.dtor] -/
def destroy (x : C) (e : Env) : M (VS C S N) Unit := do
  clear H x e
  set x .dead

/-- Move assignment if `y` does not hold the alternative that `x` holds: `emplace<j>(get<j>(std::move(y)))`
([variant.assign]).  If the constructor throws, `x` is valueless. -/
def emplaceMove (x y : C) (es : Nat → Env) : M (VS C S N) Unit := do
  clear H x (es 1)
  moveInto H P x y (es 2)

/-- `x = variant(y)` with the temporary at `t` ([variant.assign]). -/
def viaTemp (x y t : C) (es : Nat → Env) : M (VS C S N) Unit := do
  copyInto H P t y (es 0)
  M.onThrow (emplaceMove H P x t es) (destroy H t (es 3))
  destroy H t (es 3)

/-- `emplace<j>(get<j>(y))` ([variant.assign]). -/
def emplaceCopy (x y : C) (es : Nat → Env) : M (VS C S N) Unit := do
  clear H x (es 1)
  copyInto H P x y (es 0)

/-- [variant.assign], copy assignment, by what `x` and `y` hold.  If they hold different alternatives: `emplace` if the
type `y` holds is nothrow copy constructible or not nothrow move constructible, otherwise a temporary variant. -/
def assignCopySlots (x y t : C) (es : Nat → Env) : Slot N → Slot N → M (VS C S N) Unit
  | .dead, _ => M.undef .deadObject
  | _, .dead => M.undef .deadObject
  | _, .valueless => clear H x (es 0)
  | .plain d, .plain v => do
    set x (.plain (P.ops.copyAssign d v ((es 0).choice 0)).2)
    rethrow (P.ops.copyAssign d v ((es 0).choice 0)).1
  | _, .plain _ => if P.nothrowCopy || !P.nothrowMove then emplaceCopy H P x y es else viaTemp H P x y t es
  | .held i, .held j =>
    if i = j then M.fst ((H i).assignCopy (x, i) (y, i) (es 0))
    else if !(H j).nothrowMove then emplaceCopy H P x y es else viaTemp H P x y t es
  | _, .held j => if !(H j).nothrowMove then emplaceCopy H P x y es else viaTemp H P x y t es

/-- [variant.assign], move assignment, by what `x` and `y` hold. -/
def assignMoveSlots (x y : C) (es : Nat → Env) : Slot N → Slot N → M (VS C S N) Unit
  | .dead, _ => M.undef .deadObject
  | _, .dead => M.undef .deadObject
  | _, .valueless => clear H x (es 0)
  | .plain d, .plain v => do
    set y (.plain (P.ops.moveAssign d v ((es 0).choice 0)).2.2)
    set x (.plain (P.ops.moveAssign d v ((es 0).choice 0)).2.1)
    rethrow (P.ops.moveAssign d v ((es 0).choice 0)).1
  | .held i, .held j => if i = j then M.fst ((H i).assignMove (x, i) (y, i) (es 0)) else emplaceMove H P x y es
  | _, _ => emplaceMove H P x y es

/-- What programs do with such variants. -/
inductive VOp (C I F N Y : Type) where
  /-- `variant(std::in_place_index<0>, args...)` -/
  | makePlain (x : C) (args : TArgs Y)
  /-- `variant(std::in_place_index<k + 1>, args...)` -/
  | makeHeld (x : C) (k : Nat) (i : I)
  | copy (x y : C)
  | move (x y : C)
  | destroy (x : C)
  /-- `x = y`; `t` is where the temporary is, if there is one -/
  | assignCopy (x y t : C)
  | assignMove (x y : C)
  /-- `x.emplace<0>(args...)` -/
  | emplacePlain (x : C) (args : TArgs Y)
  /-- `x.emplace<k + 1>(args...)` -/
  | emplaceHeld (x : C) (k : Nat) (i : I)
  /-- an operation on the object of the first alternative -/
  | modifyPlain (x : C) (g : N → N)
  /-- an operation on the object owned by the indirect that the variant holds -/
  | modifyHeld (x : C) (f : F)

/-- One operation on variants. -/
def call (o : VOp C I F N Y) (es : Nat → Env) : M (VS C S N) Unit :=
  match o with
  | .makePlain x args => do
    unborn x
    finishPlain x (P.ops.make args ((es 0).choice 0))
  | .makeHeld x k i => do
    unborn x
    M.fst ((H k).make (x, k) i (es 0))
    set x (.held k)
  | .copy x y => do
    unborn x
    copyInto H P x y (es 0)
  | .move x y => do
    unborn x
    moveInto H P x y (es 0)
  | .destroy x => destroy H x (es 0)
  | .assignCopy x y t => look x >>= fun a => look y >>= fun b => assignCopySlots H P x y t es a b
  | .assignMove x y => look x >>= fun a => look y >>= fun b => assignMoveSlots H P x y es a b
  | .emplacePlain x args => do
    clear H x (es 1)
    finishPlain x (P.ops.make args ((es 0).choice 0))
  | .emplaceHeld x k i => do
    clear H x (es 1)
    M.fst ((H k).make (x, k) i (es 0))
    set x (.held k)
  | .modifyPlain x g => look x >>= fun
    | .plain v => set x (.plain (g v))
    | _ => M.undef .deadObject
  | .modifyHeld x f => look x >>= fun
    | .held k => M.fst ((H k).modify (x, k) f (es 0))
    | _ => M.undef .deadObject

end
end Verif.Variant
