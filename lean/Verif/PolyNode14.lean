import Verif.PolyNode
import Verif.Polymorphic14

/-!
# Recursive node types and polymorphic_cxx14.h

`Verif/PolyNode.lean` once more, for classes whose members are those of polymorphic_cxx14.h: the text is the same, but the
functions of `polymorphic` are those of `Verif/Polymorphic14.lean`.  Statements are those of `Verif/PolyNode.lean`.
-/

set_option autoImplicit false

namespace Verif
namespace PNode14
open Verif PNode

section
variable {N A R Ty V X : Type} [DecidableEq N] [DecidableEq R] [DecidableEq Ty]

variable (tr : ATraits A R) (P : PSpec Ty V X) (K : Nat)

section
variable (I : POps (PSt N A R Ty V) A Ty X)

/-- `~optional`, which calls `~polymorphic()` (polymorphic_cxx14.h:357). -/
def dropMember (p : Addr) (k : Nat) : M (PSt N A R Ty V) Unit := do
  if ← engaged (.field p k) then Polymorphic14.dtor tr I (.field p k)

/-- Destroy the members `k-1, …, 0` of the node at `p`. -/
def dropMembers (p : Addr) : Nat → M (PSt N A R Ty V) Unit
  | 0 => pure ()
  | k + 1 => do
    dropMember tr I p k
    dropMembers p k

/-- `optional(const optional&)` for member `k` of the node under construction at `dst`, which calls the copy constructor
(polymorphic_cxx14.h:326-330). -/
def copyMember (dst src : Addr) (k : Nat) : M (PSt N A R Ty V) Unit := do
  if ← hasMember src k then
    let h ← Polymorphic14.ctorCopy tr I (.field src k)
    emplace (.field dst k) h

/-- `optional(optional&&)`, which calls the move constructor (polymorphic_cxx14.h:353-355). -/
def moveMember (dst src : Addr) (k : Nat) : M (PSt N A R Ty V) Unit := do
  if ← hasMember src k then
    let h ← Polymorphic14.ctorMove tr I (.field src k)
    emplace (.field dst k) h

/-- The constructors and the destructor of the classes of the hierarchy, given those of the nodes one level below. -/
def node : POps (PSt N A R Ty V) A Ty X where
  base := P.base
  make ty _ dst xs := do
    let c ← choose
    finishU ty dst .args (P.make ty xs c)
  copyCtor ty _ dst src := do
    let v ← readU ty src
    let c ← choose
    match P.copy ty v c with
    | .error e => M.throwE e
    | .ok w =>
      Composite.build (copyMember tr I dst src) (dropMembers tr I dst) K
      beginU ty dst w (.copyOf src)
  moveCtor ty _ dst src := do
    let v ← readU ty src
    let c ← choose
    writeU src (P.move ty v c).2
    match (P.move ty v c).1 with
    | .error e => M.throwE e
    | .ok w =>
      Composite.build (moveMember tr I dst src) (dropMembers tr I dst) K
      beginU ty dst w (.moveOf src)
  dtor ty _ p := do
    endU ty p
    dropMembers tr I p K
  block _ _ m := m

end

/-- The operations of the hierarchy, with recursion depth at most `n`. -/
def ops : Nat → POps (PSt N A R Ty V) A Ty X
  | 0 => noFuel P
  | n + 1 => node tr P K (ops n)

/-- The place reached from `l` by member accesses: each step dereferences the `polymorphic` (polymorphic_cxx14.h:417-435)
and selects a member of the node, which must be alive. -/
def walk (l : Loc N) : List Nat → M (PSt N A R Ty V) (Loc N)
  | [] => pure l
  | k :: ks => do
    let p ← Polymorphic14.deref l
    let _ ← readAny p
    walk (.field p k) ks

/-- The place denoted by a path. -/
def resolve (p : Path N) : M (PSt N A R Ty V) (Loc N) := walk (.var p.root) p.steps

/-- Run a statement with recursion depth at most `n`. -/
def exec (n : Nat) : Stmt N A Ty X → M (PSt N A R Ty V) Unit
  | .make p a ty us => do
    let l ← resolve p
    let h ← Polymorphic14.ctorInPlaceA tr (ops tr P K n) a ty us
    emplace l h
  | .copy p q => do
    let l ← resolve p
    let m ← resolve q
    let h ← Polymorphic14.ctorCopy tr (ops tr P K n) m
    emplace l h
  | .copyA p a q => do
    let l ← resolve p
    let m ← resolve q
    let h ← Polymorphic14.ctorCopyA tr (ops tr P K n) a m
    emplace l h
  | .moveA p a q => do
    let l ← resolve p
    let m ← resolve q
    let h ← Polymorphic14.ctorMoveA tr (ops tr P K n) a m
    emplace l h
  | .move p q => do
    let l ← resolve p
    let m ← resolve q
    let h ← Polymorphic14.ctorMove tr (ops tr P K n) m
    emplace l h
  | .drop p => do
    let l ← resolve p
    Polymorphic14.dtor tr (ops tr P K n) l
  | .assign p q => do
    let l ← resolve p
    let m ← resolve q
    let _ ← Polymorphic14.assignCopy tr (ops tr P K n) l m
  | .moveAssign p q => do
    let l ← resolve p
    let m ← resolve q
    let _ ← Polymorphic14.assignMove tr (ops tr P K n) l m
  | .swap p q => do
    let l ← resolve p
    let m ← resolve q
    Polymorphic14.swap tr l m

/-- Run one statement in its environment. -/
def call (c : PCall N A Ty X) : M (PSt N A R Ty V) Unit := fun s => exec tr P K c.depth c.op (s.enter c.env)

end
end PNode14
end Verif
