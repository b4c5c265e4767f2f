import Verif.Polymorphic
import Verif.IndirectOps

/-!
# Histories of calls on `polymorphic` objects

`POp` lists the public calls, `step` executes one call with the functions of `Verif/Polymorphic.lean`.
-/

set_option autoImplicit false

namespace Verif

/-- Which value constructor is called.  In `from ty u` the argument has type `ty`: a `ty` of the client's (`.arg`,
described by a constructor argument that makes an equal object), or the object owned by `y`, cast to `ty` by the client,
as lvalue or rvalue. -/
inductive PCtor (L Ty X : Type) where
  | default
  | from (ty : Ty) (u : Src L X)
  | inPlace (ty : Ty) (us : List X)
  | ilist (ty : Ty) (l us : List X)
  deriving DecidableEq, Repr

/-- Public calls on `polymorphic` objects. `L` names the objects. -/
inductive POp (L A Ty V X : Type) where
  /-- value construction of `x`, with an allocator argument or default-constructed allocator -/
  | make (x : L) (a : Option A) (c : PCtor L Ty X)
  | copy (x y : L)
  | copyA (x : L) (a : A) (y : L)
  | move (x y : L)
  | moveA (x : L) (a : A) (y : L)
  | destroy (x : L)
  | assignCopy (x y : L)
  | assignMove (x y : L)
  /-- look at the object `*x`: its dynamic type and value -/
  | deref (x : L)
  /-- look at `*x.operator->()` -/
  | arrow (x : L)
  /-- `*x` is modified in place by client code, which may depend on the dynamic type -/
  | modify (x : L) (f : Ty → V → V)
  | valueless (x : L)
  | getAllocator (x : L)
  | swap (x y : L)
  | friendSwap (x y : L)

namespace Polymorphic
section
variable {L A R Ty V X : Type} [DecidableEq L] [DecidableEq R] [DecidableEq Ty]

/-- Client code evaluates the argument expression. -/
def evalSrc : Src L X → M (St L A R (PBody Ty V)) (Fwd X)
  | .arg x => pure (.arg x)
  | .lval y => do
    let q ← deref y
    pure (.lval q)
  | .rval y => do
    let q ← deref y
    pure (.rval q)

variable (tr : ATraits A R) (P : POps (St L A R (PBody Ty V)) A Ty X)

/-- The value constructors, without (`none`) or with (`some a`) allocator argument. -/
def construct : Option A → PCtor L Ty X → M (St L A R (PBody Ty V)) (Handle A)
  | none, .default => ctorDefault tr P
  | none, .from ty u => do
    let u ← evalSrc u
    ctorFrom tr P ty u
  | none, .inPlace ty us => ctorInPlace tr P ty us
  | none, .ilist ty l us => ctorIlist tr P ty l us
  | some a, .default => ctorDefaultA tr P a
  | some a, .from ty u => do
    let u ← evalSrc u
    ctorFromA tr P a ty u
  | some a, .inPlace ty us => ctorInPlaceA tr P a ty us
  | some a, .ilist ty l us => ctorIlistA tr P a ty l us

/-- One call. -/
def step : POp L A Ty V X → M (St L A R (PBody Ty V)) (Out L A (Ty × V))
  | .make x a c => do
    let h ← construct tr P a c
    emplace x h
    pure .unit
  | .copy x y => do
    let h ← ctorCopy tr P y
    emplace x h
    pure .unit
  | .copyA x a y => do
    let h ← ctorCopyA tr P a y
    emplace x h
    pure .unit
  | .move x y => do
    let h ← ctorMove tr P y
    emplace x h
    pure .unit
  | .moveA x a y => do
    let h ← ctorMoveA tr P a y
    emplace x h
    pure .unit
  | .destroy x => do
    dtor tr P x
    pure .unit
  | .assignCopy x y => do
    let r ← assignCopy tr P x y
    pure (.self r)
  | .assignMove x y => do
    let r ← assignMove tr P x y
    pure (.self r)
  | .deref x => do
    let p ← deref x
    let v ← readAny p
    pure (.value v)
  | .arrow x => do
    let p ← arrow x
    let v ← readAny p
    pure (.value v)
  | .modify x f => do
    let p ← deref x
    let v ← readAny p
    writeU p (f v.1 v.2)
    pure .unit
  | .valueless x => do
    let b ← valueless x
    pure (.bool b)
  | .getAllocator x => do
    let a ← getAllocator x
    pure (.alloc a)
  | .swap x y => do
    swap tr x y
    pure .unit
  | .friendSwap x y => do
    friendSwap tr x y
    pure .unit

/-- One call in an environment. -/
def call (o : POp L A Ty V X) (e : Env) (s : St L A R (PBody Ty V)) : Res (St L A R (PBody Ty V)) (Out L A (Ty × V)) :=
  step tr P o (s.enter e)

end
end Polymorphic
end Verif
