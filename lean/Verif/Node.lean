import Verif.Indirect

/-!
# Recursive node types

`indirect` allows recursive value types (DRAFT.md, "Using indirect …", compile_checks/indirect_as_member.cc:
a class with `indirect` members, and `indirect` of a class that is still incomplete):

```
struct Node {
  Payload v;
  std::optional<indirect<Node, A>> m_0, …, m_{K-1};
};                       // special members generated by the compiler
```

This file models the compiler-generated special members of such a class, for any number `K` of members,
as operations of an owned type (`TOps`).  The functions of `indirect` they use are the unchanged
definitions of `Verif/Indirect.lean`; the recursion between `Node` and `indirect<Node>` is cut by a fuel
argument (`Res.diverged` when it is used up).

Nothing here models a line of /repo except through `Verif/Indirect.lean`; what is modelled are rules of
C++ for defaulted special members: members are constructed in declaration order and destroyed in reverse
order, if a member's constructor throws the members already constructed are destroyed in reverse order, the
lifetime of an object ends when its destructor call starts, and assignment is memberwise in declaration
order.  `std::optional` copies, moves, assigns, creates or destroys the contained object.
Simplifications: the life of the payload inside its node is not tracked separately (the events of the
trace are those of whole nodes; `construct` is recorded when the node is complete, `destroy` when its
destructor starts, which is when its lifetime ends); assignment to a node from an argument assigns the payload.
-/

set_option autoImplicit false

namespace Verif

/-- Where an `indirect<Node>` can live: in a variable, or as the contained value of the `k`-th member of
the node in block `p`. -/
inductive Loc (N : Type) where
  | var (x : N)
  | field (p : Addr) (k : Nat)
  deriving DecidableEq, Repr

namespace Node
open Verif

section
variable {N A R V X : Type} [DecidableEq N] [DecidableEq R]

/-- States of programs with recursive nodes. -/
abbrev NSt (N A R V : Type) := St (Loc N) A R (Obj V)

/-- Does the optional at `l` contain a value?  (`std::optional::has_value`.) -/
def engaged (l : Loc N) : M (NSt N A R V) Bool := fun s => .ok (s.hs l).isSome s

/-- The same for a member of a node, which must be alive. -/
def hasMember (p : Addr) (k : Nat) : M (NSt N A R V) Bool := do
  let _ ← readObj p
  engaged (.field p k)

/-- Members constructed in order; if one throws, those before it are destroyed (`undo k` destroys the
members `k-1, …, 0`). -/
def buildMembers (f : Nat → M (NSt N A R V) Unit) (undo : Nat → M (NSt N A R V) Unit) :
    Nat → M (NSt N A R V) Unit
  | 0 => pure ()
  | k + 1 => do
    buildMembers f undo k
    M.onThrow (f k) (undo k)

/-- Members assigned in order. -/
def eachMember (f : Nat → M (NSt N A R V) Unit) : Nat → M (NSt N A R V) Unit
  | 0 => pure ()
  | k + 1 => do
    eachMember f k
    f k

variable (tr : ATraits A R) (T : TSpec V X) (K : Nat)

section
variable (I : TOps (NSt N A R V) A X)

/-- `~optional`, which calls `~indirect()` (indirect.h:222). -/
def dropMember (p : Addr) (k : Nat) : M (NSt N A R V) Unit := do
  if ← engaged (.field p k) then Indirect.dtor tr I (.field p k)

/-- Destroy the members `k-1, …, 0` of the node at `p`. -/
def dropMembers (p : Addr) : Nat → M (NSt N A R V) Unit
  | 0 => pure ()
  | k + 1 => do
    dropMember tr I p k
    dropMembers p k

/-- `optional(const optional&)` for member `k` of the node under construction at `dst`, which calls the copy constructor
(indirect.h:129-135). -/
def copyMember (dst src : Addr) (k : Nat) : M (NSt N A R V) Unit := do
  if ← hasMember src k then
    let h ← Indirect.ctorCopy tr I (.field src k)
    emplace (.field dst k) h

/-- `optional(optional&&)`, which calls the move constructor (indirect.h:137-139). -/
def moveMember (dst src : Addr) (k : Nat) : M (NSt N A R V) Unit := do
  if ← hasMember src k then
    let h ← Indirect.ctorMove tr I (.field src k)
    emplace (.field dst k) h

/-- `optional::operator=(const optional&)`, which calls the copy assignment (indirect.h:228-258), the copy constructor or the
destructor. -/
def copyAssignMember (dst src : Addr) (k : Nat) : M (NSt N A R V) Unit := do
  if ← hasMember src k then
    if ← hasMember dst k then
      let _ ← Indirect.assignCopy tr I (.field dst k) (.field src k)
    else
      let h ← Indirect.ctorCopy tr I (.field src k)
      emplace (.field dst k) h
  else
    if ← hasMember dst k then
      Indirect.dtor tr I (.field dst k)

/-- `optional::operator=(optional&&)`, which calls the move assignment (indirect.h:260-292), the move constructor or the
destructor. -/
def moveAssignMember (dst src : Addr) (k : Nat) : M (NSt N A R V) Unit := do
  if ← hasMember src k then
    if ← hasMember dst k then
      let _ ← Indirect.assignMove tr I (.field dst k) (.field src k)
    else
      let h ← Indirect.ctorMove tr I (.field src k)
      emplace (.field dst k) h
  else
    if ← hasMember dst k then
      Indirect.dtor tr I (.field dst k)

/-- The generated special members of `Node`, given the operations `I` of the nodes one level below. -/
def node : TOps (NSt N A R V) A X where
  make _ dst xs := do
    let c ← choose
    finish dst .args (T.make xs c)
  copyCtor _ dst src := do
    let v ← readObj src
    let c ← choose
    match T.copy v c with
    | .error e => M.throwE e
    | .ok w =>
      buildMembers (copyMember tr I dst src) (dropMembers tr I dst) K
      beginObj dst w (.copyOf src)
  moveCtor _ dst src := do
    let v ← readObj src
    let c ← choose
    writeObj src (T.move v c).2
    match (T.move v c).1 with
    | .error e => M.throwE e
    | .ok w =>
      buildMembers (moveMember tr I dst src) (dropMembers tr I dst) K
      beginObj dst w (.moveOf src)
  copyAssign dst src := do
    let d ← readObj dst
    let v ← readObj src
    let c ← choose
    emit (.assign dst (.copyOf src))
    writeObj dst (T.copyAssign d v c).2
    rethrow (T.copyAssign d v c).1
    eachMember (copyAssignMember tr I dst src) K
  moveAssign dst src := do
    let d ← readObj dst
    let v ← readObj src
    let c ← choose
    emit (.assign dst (.moveOf src))
    writeObj src (T.moveAssign d v c).2.2
    writeObj dst (T.moveAssign d v c).2.1
    rethrow (T.moveAssign d v c).1
    eachMember (moveAssignMember tr I dst src) K
  assignArg dst x := do
    let d ← readObj dst
    let c ← choose
    emit (.assign dst .args)
    writeObj dst (T.assignArg d x c).2
    rethrow (T.assignArg d x c).1
  dtor _ p := do
    let _ ← readObj p
    writeBody p none
    emit (.destroy p)
    dropMembers tr I p K
  assignable := T.assignable
  copyAssignable := T.copyAssignable

end

/-- Out of fuel. -/
def noFuel (T : TSpec V X) : TOps (NSt N A R V) A X where
  make _ _ _ := M.diverge
  copyCtor _ _ _ := M.diverge
  moveCtor _ _ _ := M.diverge
  copyAssign _ _ := M.diverge
  moveAssign _ _ := M.diverge
  assignArg _ _ := M.diverge
  dtor _ _ := M.diverge
  assignable := T.assignable
  copyAssignable := T.copyAssignable

/-- The operations of `Node`, with recursion depth at most `n`. -/
def ops : Nat → TOps (NSt N A R V) A X
  | 0 => noFuel T
  | n + 1 => node tr T K (ops n)

end
end Node
end Verif
