import Verif.Node

/-!
# Programs with recursive nodes

A place in a program is a variable followed by member accesses: `(*(*x).m_2)->m_0`.  `walk` evaluates such
an expression with the accessors of `indirect` (indirect.h:311-339) and `std::optional`; `exec` runs one
statement of a program on places.  The functions of `indirect` are those of `Verif/Indirect.lean`.
-/

set_option autoImplicit false

namespace Verif

/-- A variable of type `std::optional<indirect<Node>>` and the numbers of the members to go to from
there. -/
structure Path (N : Type) where
  root : N
  steps : List Nat
  deriving DecidableEq, Repr

namespace Node
open Verif

section
variable {N A R V X : Type} [DecidableEq N] [DecidableEq R]

/-- The place reached from `l` by member accesses: each step dereferences the `indirect` (indirect.h:311
-339) and selects a member of the node, which must be alive. -/
def walk (l : Loc N) : List Nat → M (NSt N A R V) (Loc N)
  | [] => pure l
  | k :: ks => do
    let p ← Indirect.deref l
    let _ ← readObj p
    walk (.field p k) ks

/-- The place denoted by a path. -/
def resolve (P : Path N) : M (NSt N A R V) (Loc N) := walk (.var P.root) P.steps

/-- Statements.  `P` is the place changed. -/
inductive NOp (N A X : Type) where
  /-- `P.emplace(allocator_arg, a, in_place, us...)` (indirect.h:168-174) -/
  | make (P : Path N) (a : A) (us : List X)
  /-- `P.emplace(*Q)` (copy constructor, indirect.h:129-135) -/
  | copy (P Q : Path N)
  /-- `P.emplace(allocator_arg, a, *Q)` (indirect.h:185-195) -/
  | copyA (P : Path N) (a : A) (Q : Path N)
  /-- `P.emplace(allocator_arg, a, std::move(*Q))` (indirect.h:197-216) -/
  | moveA (P : Path N) (a : A) (Q : Path N)
  /-- `P.emplace(std::move(*Q))` (move constructor, indirect.h:137-139) -/
  | move (P Q : Path N)
  /-- `P.reset()`, or the end of the variable's scope (`~indirect`, indirect.h:222) -/
  | drop (P : Path N)
  /-- `*P = *Q` (indirect.h:228-258) -/
  | assign (P Q : Path N)
  /-- `*P = std::move(*Q)` (indirect.h:260-292) -/
  | moveAssign (P Q : Path N)
  /-- `P->swap(*Q)` (indirect.h:351-366) -/
  | swap (P Q : Path N)
  /-- `*P = x` for an argument `x` (indirect.h:294-305) -/
  | set (P : Path N) (x : X)
  /-- `*P = **Q`: the same function, `U` is `const Node&` -/
  | setCopy (P Q : Path N)
  /-- `*P = std::move(**Q)`: the same function, `U` is `Node` -/
  | setMove (P Q : Path N)

variable (tr : ATraits A R) (T : TSpec V X) (K : Nat)

/-- Run a statement with recursion depth at most `n`. -/
def exec (n : Nat) : NOp N A X → M (NSt N A R V) Unit
  | .make P a us => do
    let l ← resolve P
    let h ← Indirect.ctorInPlaceA tr (ops tr T K n) a us
    emplace l h
  | .copy P Q => do
    let l ← resolve P
    let m ← resolve Q
    let h ← Indirect.ctorCopy tr (ops tr T K n) m
    emplace l h
  | .copyA P a Q => do
    let l ← resolve P
    let m ← resolve Q
    let h ← Indirect.ctorCopyA tr (ops tr T K n) a m
    emplace l h
  | .moveA P a Q => do
    let l ← resolve P
    let m ← resolve Q
    let h ← Indirect.ctorMoveA tr (ops tr T K n) a m
    emplace l h
  | .move P Q => do
    let l ← resolve P
    let m ← resolve Q
    let h ← Indirect.ctorMove tr (ops tr T K n) m
    emplace l h
  | .drop P => do
    let l ← resolve P
    Indirect.dtor tr (ops tr T K n) l
  | .assign P Q => do
    let l ← resolve P
    let m ← resolve Q
    let _ ← Indirect.assignCopy tr (ops tr T K n) l m
  | .moveAssign P Q => do
    let l ← resolve P
    let m ← resolve Q
    let _ ← Indirect.assignMove tr (ops tr T K n) l m
  | .swap P Q => do
    let l ← resolve P
    let m ← resolve Q
    Indirect.swap tr l m
  | .set P x => do
    let l ← resolve P
    let _ ← Indirect.assignFrom tr (ops tr T K n) l (.arg x)
  | .setCopy P Q => do
    let m ← resolve Q
    let q ← Indirect.deref m
    let l ← resolve P
    let _ ← Indirect.assignFrom tr (ops tr T K n) l (.lval q)
  | .setMove P Q => do
    let m ← resolve Q
    let q ← Indirect.deref m
    let l ← resolve P
    let _ ← Indirect.assignFrom tr (ops tr T K n) l (.rval q)

/-- A statement of a program: the operation, the recursion depth available to it and the environment. -/
structure NCall (N A X : Type) where
  op : NOp N A X
  depth : Nat
  env : Env

/-- Run one statement in its environment. -/
def call (c : NCall N A X) : M (NSt N A R V) Unit := fun s => exec tr T K c.depth c.op (s.enter c.env)

/-- The state before the program starts. -/
def start (e : Env) : NSt N A R V := ⟨fun _ => none, fun _ => none, [], e, 0, 0⟩

end
end Node
end Verif
