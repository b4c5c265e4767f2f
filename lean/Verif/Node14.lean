import Verif.NodeProg
import Verif.Indirect14

/-!
# Recursive node types and indirect_cxx14.h

`Verif/Node.lean` and `Verif/NodeProg.lean` once more, for a class whose members are those of indirect_cxx14.h: the text is
the same, but the functions of `indirect` are those of `Verif/Indirect14.lean`.  Statements are those of `Verif/NodeProg.lean`.
-/

set_option autoImplicit false

namespace Verif
namespace Node14
open Verif Node

section
variable {N A R V X : Type} [DecidableEq N] [DecidableEq R]

variable (tr : ATraits A R) (T : TSpec V X) (K : Nat)

section
variable (I : TOps (NSt N A R V) A X)

/-- `~optional`, which calls `~indirect()` (indirect_cxx14.h:237). -/
def dropMember (p : Addr) (k : Nat) : M (NSt N A R V) Unit := do
  if ← engaged (.field p k) then Indirect14.dtor tr I (.field p k)

/-- Destroy the members `k-1, …, 0` of the node at `p`. -/
def dropMembers (p : Addr) : Nat → M (NSt N A R V) Unit
  | 0 => pure ()
  | k + 1 => do
    dropMember tr I p k
    dropMembers p k

/-- `optional(const optional&)` for member `k` of the node under construction at `dst`, which calls the copy constructor
(indirect_cxx14.h:209-213). -/
def copyMember (dst src : Addr) (k : Nat) : M (NSt N A R V) Unit := do
  if ← hasMember src k then
    let h ← Indirect14.ctorCopy tr I (.field src k)
    emplace (.field dst k) h

/-- `optional(optional&&)`, which calls the move constructor (indirect_cxx14.h:233-235). -/
def moveMember (dst src : Addr) (k : Nat) : M (NSt N A R V) Unit := do
  if ← hasMember src k then
    let h ← Indirect14.ctorMove tr I (.field src k)
    emplace (.field dst k) h

/-- `optional::operator=(const optional&)`, which calls the copy assignment (indirect_cxx14.h:239-268), the copy constructor or the
destructor. -/
def copyAssignMember (dst src : Addr) (k : Nat) : M (NSt N A R V) Unit := do
  if ← hasMember src k then
    if ← hasMember dst k then
      let _ ← Indirect14.assignCopy tr I (.field dst k) (.field src k)
    else
      let h ← Indirect14.ctorCopy tr I (.field src k)
      emplace (.field dst k) h
  else
    if ← hasMember dst k then
      Indirect14.dtor tr I (.field dst k)

/-- `optional::operator=(optional&&)`, which calls the move assignment (indirect_cxx14.h:270-301), the move constructor or the
destructor. -/
def moveAssignMember (dst src : Addr) (k : Nat) : M (NSt N A R V) Unit := do
  if ← hasMember src k then
    if ← hasMember dst k then
      let _ ← Indirect14.assignMove tr I (.field dst k) (.field src k)
    else
      let h ← Indirect14.ctorMove tr I (.field src k)
      emplace (.field dst k) h
  else
    if ← hasMember dst k then
      Indirect14.dtor tr I (.field dst k)

/-- The generated special members of `Node`, given the operations `I` of the nodes one level below. -/
def node : TOps (NSt N A R V) A X where
  make _ dst xs := do
    let c ← choose
    finish dst .args (T.make xs c)
  copyCtor _ dst src := do
    let v ← readObj src
    let c ← choose
    match T.copy v c with
    | .error e => M.throwE e
    | .ok w =>
      buildMembers (copyMember tr I dst src) (dropMembers tr I dst) K
      beginObj dst w (.copyOf src)
  moveCtor _ dst src := do
    let v ← readObj src
    let c ← choose
    writeObj src (T.move v c).2
    match (T.move v c).1 with
    | .error e => M.throwE e
    | .ok w =>
      buildMembers (moveMember tr I dst src) (dropMembers tr I dst) K
      beginObj dst w (.moveOf src)
  copyAssign dst src := do
    let d ← readObj dst
    let v ← readObj src
    let c ← choose
    emit (.assign dst (.copyOf src))
    writeObj dst (T.copyAssign d v c).2
    rethrow (T.copyAssign d v c).1
    eachMember (copyAssignMember tr I dst src) K
  moveAssign dst src := do
    let d ← readObj dst
    let v ← readObj src
    let c ← choose
    emit (.assign dst (.moveOf src))
    writeObj src (T.moveAssign d v c).2.2
    writeObj dst (T.moveAssign d v c).2.1
    rethrow (T.moveAssign d v c).1
    eachMember (moveAssignMember tr I dst src) K
  assignArg dst x := do
    let d ← readObj dst
    let c ← choose
    emit (.assign dst .args)
    writeObj dst (T.assignArg d x c).2
    rethrow (T.assignArg d x c).1
  dtor _ p := do
    let _ ← readObj p
    writeBody p none
    emit (.destroy p)
    dropMembers tr I p K
  assignable := T.assignable
  copyAssignable := T.copyAssignable

end

/-- The operations of `Node`, with recursion depth at most `n`. -/
def ops : Nat → TOps (NSt N A R V) A X
  | 0 => noFuel T
  | n + 1 => node tr T K (ops n)

/-- The place reached from `l` by member accesses: each step dereferences the `indirect` (indirect_cxx14.h:317
-345) and selects a member of the node, which must be alive. -/
def walk (l : Loc N) : List Nat → M (NSt N A R V) (Loc N)
  | [] => pure l
  | k :: ks => do
    let p ← Indirect14.deref l
    let _ ← readObj p
    walk (.field p k) ks

/-- The place denoted by a path. -/
def resolve (P : Path N) : M (NSt N A R V) (Loc N) := walk (.var P.root) P.steps

/-- Run a statement with recursion depth at most `n`. -/
def exec (n : Nat) : NOp N A X → M (NSt N A R V) Unit
  | .make P a us => do
    let l ← resolve P
    let h ← Indirect14.ctorInPlaceA tr (ops tr T K n) a us
    emplace l h
  | .copy P Q => do
    let l ← resolve P
    let m ← resolve Q
    let h ← Indirect14.ctorCopy tr (ops tr T K n) m
    emplace l h
  | .copyA P a Q => do
    let l ← resolve P
    let m ← resolve Q
    let h ← Indirect14.ctorCopyA tr (ops tr T K n) a m
    emplace l h
  | .moveA P a Q => do
    let l ← resolve P
    let m ← resolve Q
    let h ← Indirect14.ctorMoveA tr (ops tr T K n) a m
    emplace l h
  | .move P Q => do
    let l ← resolve P
    let m ← resolve Q
    let h ← Indirect14.ctorMove tr (ops tr T K n) m
    emplace l h
  | .drop P => do
    let l ← resolve P
    Indirect14.dtor tr (ops tr T K n) l
  | .assign P Q => do
    let l ← resolve P
    let m ← resolve Q
    let _ ← Indirect14.assignCopy tr (ops tr T K n) l m
  | .moveAssign P Q => do
    let l ← resolve P
    let m ← resolve Q
    let _ ← Indirect14.assignMove tr (ops tr T K n) l m
  | .swap P Q => do
    let l ← resolve P
    let m ← resolve Q
    Indirect14.swap tr l m
  | .set P x => do
    let l ← resolve P
    let _ ← Indirect14.assignFrom tr (ops tr T K n) l (.arg x)
  | .setCopy P Q => do
    let m ← resolve Q
    let q ← Indirect14.deref m
    let l ← resolve P
    let _ ← Indirect14.assignFrom tr (ops tr T K n) l (.lval q)
  | .setMove P Q => do
    let m ← resolve Q
    let q ← Indirect14.deref m
    let l ← resolve P
    let _ ← Indirect14.assignFrom tr (ops tr T K n) l (.rval q)

/-- Run one statement in its environment. -/
def call (c : NCall N A X) : M (NSt N A R V) Unit := fun s => exec tr T K c.depth c.op (s.enter c.env)

end
end Node14
end Verif
