import Verif.Polymorphic
import Verif.NodeProg
import Verif.Composite

/-!
# Recursive node types with `polymorphic` members

Class hierarchies whose objects own objects of the same hierarchy (DRAFT.md, "polymorphic"; compile_checks/
polymorphic_in_variant.cc, an expression tree):

```
struct Base {
  Payload v;
  std::optional<polymorphic<Base, A>> m_0, …, m_{K-1};
  virtual ~Base();       // the other special members are generated by the compiler
};
struct Derived : Base { … };
```

As `Verif/Node.lean`, with the functions of `polymorphic` (`Verif/Polymorphic.lean`, unchanged) instead of those of
`indirect`.  `Ty` are the dynamic types; the payload's operations depend on the type.
What is modelled here are the rules of C++ for generated special members, with the simplifications stated in
`Verif/Node.lean`.
-/

set_option autoImplicit false

namespace Verif
namespace PNode
open Verif

section
variable {N A R Ty V X : Type} [DecidableEq N] [DecidableEq R] [DecidableEq Ty]

/-- States of programs with recursive nodes. -/
abbrev PSt (N A R Ty V : Type) := St (Loc N) A R (PBody Ty V)

/-- Does the optional at `l` contain a value? -/
def engaged (l : Loc N) : M (PSt N A R Ty V) Bool := fun s => .ok (s.hs l).isSome s

/-- The same for a member of a node, which must be alive. -/
def hasMember (p : Addr) (k : Nat) : M (PSt N A R Ty V) Bool := do
  let _ ← readAny p
  engaged (.field p k)

variable (tr : ATraits A R) (P : PSpec Ty V X) (K : Nat)

section
variable (I : POps (PSt N A R Ty V) A Ty X)

/-- `~optional`, which calls `~polymorphic()` (polymorphic.h:273). -/
def dropMember (p : Addr) (k : Nat) : M (PSt N A R Ty V) Unit := do
  if ← engaged (.field p k) then Polymorphic.dtor tr I (.field p k)

/-- Destroy the members `k-1, …, 0` of the node at `p`. -/
def dropMembers (p : Addr) : Nat → M (PSt N A R Ty V) Unit
  | 0 => pure ()
  | k + 1 => do
    dropMember tr I p k
    dropMembers p k

/-- `optional(const optional&)` for member `k` of the node under construction at `dst`, which calls the copy constructor
(polymorphic.h:189-193). -/
def copyMember (dst src : Addr) (k : Nat) : M (PSt N A R Ty V) Unit := do
  if ← hasMember src k then
    let h ← Polymorphic.ctorCopy tr I (.field src k)
    emplace (.field dst k) h

/-- `optional(optional&&)`, which calls the move constructor (polymorphic.h:195-197). -/
def moveMember (dst src : Addr) (k : Nat) : M (PSt N A R Ty V) Unit := do
  if ← hasMember src k then
    let h ← Polymorphic.ctorMove tr I (.field src k)
    emplace (.field dst k) h

/-- The constructors and the destructor of the classes of the hierarchy, given those of the nodes one level below. -/
def node : POps (PSt N A R Ty V) A Ty X where
  base := P.base
  make ty _ dst xs := do
    let c ← choose
    finishU ty dst .args (P.make ty xs c)
  copyCtor ty _ dst src := do
    let v ← readU ty src
    let c ← choose
    match P.copy ty v c with
    | .error e => M.throwE e
    | .ok w =>
      Composite.build (copyMember tr I dst src) (dropMembers tr I dst) K
      beginU ty dst w (.copyOf src)
  moveCtor ty _ dst src := do
    let v ← readU ty src
    let c ← choose
    writeU src (P.move ty v c).2
    match (P.move ty v c).1 with
    | .error e => M.throwE e
    | .ok w =>
      Composite.build (moveMember tr I dst src) (dropMembers tr I dst) K
      beginU ty dst w (.moveOf src)
  dtor ty _ p := do
    endU ty p
    dropMembers tr I p K
  block _ _ m := m

end

/-- Out of fuel. -/
def noFuel (P : PSpec Ty V X) : POps (PSt N A R Ty V) A Ty X where
  base := P.base
  make _ _ _ _ := M.diverge
  copyCtor _ _ _ _ := M.diverge
  moveCtor _ _ _ _ := M.diverge
  dtor _ _ _ := M.diverge
  block _ _ m := m

/-- The operations of the hierarchy, with recursion depth at most `n`. -/
def ops : Nat → POps (PSt N A R Ty V) A Ty X
  | 0 => noFuel P
  | n + 1 => node tr P K (ops n)

/-! ## Programs -/

/-- The place reached from `l` by member accesses: each step dereferences the `polymorphic` (polymorphic.h:343-361)
and selects a member of the node, which must be alive. -/
def walk (l : Loc N) : List Nat → M (PSt N A R Ty V) (Loc N)
  | [] => pure l
  | k :: ks => do
    let p ← Polymorphic.deref l
    let _ ← readAny p
    walk (.field p k) ks

/-- The place denoted by a path. -/
def resolve (p : Path N) : M (PSt N A R Ty V) (Loc N) := walk (.var p.root) p.steps

/-- Statements.  `p` is the place changed. -/
inductive Stmt (N A Ty X : Type) where
  /-- `p.emplace(allocator_arg, a, in_place_type<ty>, us...)` (polymorphic.h:219-227) -/
  | make (p : Path N) (a : A) (ty : Ty) (us : List X)
  /-- `p.emplace(*q)` (copy constructor, polymorphic.h:189-193) -/
  | copy (p q : Path N)
  /-- `p.emplace(allocator_arg, a, *q)` (polymorphic.h:240-248) -/
  | copyA (p : Path N) (a : A) (q : Path N)
  /-- `p.emplace(allocator_arg, a, std::move(*q))` (polymorphic.h:250-267) -/
  | moveA (p : Path N) (a : A) (q : Path N)
  /-- `p.emplace(std::move(*q))` (move constructor, polymorphic.h:195-197) -/
  | move (p q : Path N)
  /-- `p.reset()`, or the end of the variable's scope (polymorphic.h:273) -/
  | drop (p : Path N)
  /-- `*p = *q` (polymorphic.h:279-303) -/
  | assign (p q : Path N)
  /-- `*p = std::move(*q)` (polymorphic.h:305-337) -/
  | moveAssign (p q : Path N)
  /-- `p->swap(*q)` (polymorphic.h:373-388) -/
  | swap (p q : Path N)

/-- Run a statement with recursion depth at most `n`. -/
def exec (n : Nat) : Stmt N A Ty X → M (PSt N A R Ty V) Unit
  | .make p a ty us => do
    let l ← resolve p
    let h ← Polymorphic.ctorInPlaceA tr (ops tr P K n) a ty us
    emplace l h
  | .copy p q => do
    let l ← resolve p
    let m ← resolve q
    let h ← Polymorphic.ctorCopy tr (ops tr P K n) m
    emplace l h
  | .copyA p a q => do
    let l ← resolve p
    let m ← resolve q
    let h ← Polymorphic.ctorCopyA tr (ops tr P K n) a m
    emplace l h
  | .moveA p a q => do
    let l ← resolve p
    let m ← resolve q
    let h ← Polymorphic.ctorMoveA tr (ops tr P K n) a m
    emplace l h
  | .move p q => do
    let l ← resolve p
    let m ← resolve q
    let h ← Polymorphic.ctorMove tr (ops tr P K n) m
    emplace l h
  | .drop p => do
    let l ← resolve p
    Polymorphic.dtor tr (ops tr P K n) l
  | .assign p q => do
    let l ← resolve p
    let m ← resolve q
    let _ ← Polymorphic.assignCopy tr (ops tr P K n) l m
  | .moveAssign p q => do
    let l ← resolve p
    let m ← resolve q
    let _ ← Polymorphic.assignMove tr (ops tr P K n) l m
  | .swap p q => do
    let l ← resolve p
    let m ← resolve q
    Polymorphic.swap tr l m

/-- A statement of a program: the operation, the recursion depth available to it and the environment. -/
structure PCall (N A Ty X : Type) where
  op : Stmt N A Ty X
  depth : Nat
  env : Env

/-- Run one statement in its environment. -/
def call (c : PCall N A Ty X) : M (PSt N A R Ty V) Unit := fun s => exec tr P K c.depth c.op (s.enter c.env)

/-- The state before the program starts. -/
def start (e : Env) : PSt N A R Ty V := ⟨fun _ => none, fun _ => none, [], e, 0, 0⟩

end
end PNode
end Verif
