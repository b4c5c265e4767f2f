import Verif.Indirect

/-!
# Histories of calls on `indirect` objects

`Op` lists the public calls, `step` executes one call with the functions of `Verif/Indirect.lean`, `run`
executes a history of calls.  Client code that is not part of /repo is modelled here: evaluating `*y` to
obtain a constructor argument, reading and writing through the reference returned by `operator*`, and
catching exceptions between calls.
-/

set_option autoImplicit false

namespace Verif

/-- Source of a forwarded value `u`: an argument that is not a `T`, `*y`, or `std::move(*y)`. -/
inductive Src (L X : Type) where
  | arg (x : X)
  | lval (y : L)
  | rval (y : L)
  deriving DecidableEq, Repr

/-- Which value constructor is called. -/
inductive Ctor (L X : Type) where
  | default
  | from (u : Src L X)
  | inPlace (us : List X)
  | inPlaceOne (u : Src L X)
  | ilist (l us : List X)
  deriving DecidableEq, Repr

/-- Public calls on `indirect` objects. `L` names the objects. -/
inductive Op (L A V X : Type) where
  /-- value construction of `x`, with an allocator argument or default-constructed allocator -/
  | make (x : L) (a : Option A) (c : Ctor L X)
  | copy (x y : L)
  | copyA (x : L) (a : A) (y : L)
  | move (x y : L)
  | moveA (x : L) (a : A) (y : L)
  | destroy (x : L)
  | assignCopy (x y : L)
  | assignMove (x y : L)
  | assignFrom (x : L) (u : Src L X)
  /-- read `*x` -/
  | deref (x : L)
  /-- read `*x.operator->()` -/
  | arrow (x : L)
  /-- `*x` is modified in place by client code -/
  | modify (x : L) (f : V → V)
  | valueless (x : L)
  | getAllocator (x : L)
  | swap (x y : L)
  | friendSwap (x y : L)

/-- Results of three-way comparisons.  `strong_ordering`, `weak_ordering` and `partial_ordering` are modelled by one
type; the conversions between them keep the value (`equal` becomes `equivalent`). -/
inductive Cmp where
  | less
  | equivalent
  | greater
  | unordered
  deriving DecidableEq, Repr

/-- Results of calls, as far as they do not mention addresses.  `ordering` and `hash` are results of the calls of
`Verif/Query.lean` only. -/
inductive Out (L A V : Type) where
  | unit
  | self (x : L)
  | value (v : V)
  | bool (b : Bool)
  | alloc (a : A)
  | ordering (c : Cmp)
  | hash (h : Nat)
  deriving DecidableEq, Repr

namespace Indirect
section
variable {L A R V X : Type} [DecidableEq L] [DecidableEq R]

/-- Client code evaluates the argument expression. -/
def evalSrc : Src L X → M (St L A R (Obj V)) (Fwd X)
  | .arg x => pure (.arg x)
  | .lval y => do
    let q ← deref y
    pure (.lval q)
  | .rval y => do
    let q ← deref y
    pure (.rval q)

variable (tr : ATraits A R) (T : TOps (St L A R (Obj V)) A X)

/-- The value constructors, without (`none`) or with (`some a`) allocator argument.
Without an allocator argument a single in-place argument is a one-element pack (indirect.h:112-118). -/
def construct : Option A → Ctor L X → M (St L A R (Obj V)) (Handle A)
  | none, .default => ctorDefault tr T
  | none, .from u => do
    let u ← evalSrc u
    ctorFrom tr T u
  | none, .inPlace us => ctorInPlace tr T us
  | none, .inPlaceOne u => do
    let u ← evalSrc u
    ctorFrom tr T u
  | none, .ilist l us => ctorIlist tr T l us
  | some a, .default => ctorDefaultA tr T a
  | some a, .from u => do
    let u ← evalSrc u
    ctorFromA tr T a u
  | some a, .inPlace us => ctorInPlaceA tr T a us
  | some a, .inPlaceOne u => do
    let u ← evalSrc u
    ctorInPlaceOneA tr T a u
  | some a, .ilist l us => ctorIlistA tr T a l us

/-- One call. -/
def step : Op L A V X → M (St L A R (Obj V)) (Out L A V)
  | .make x a c => do
    let h ← construct tr T a c
    emplace x h
    pure .unit
  | .copy x y => do
    let h ← ctorCopy tr T y
    emplace x h
    pure .unit
  | .copyA x a y => do
    let h ← ctorCopyA tr T a y
    emplace x h
    pure .unit
  | .move x y => do
    let h ← ctorMove tr T y
    emplace x h
    pure .unit
  | .moveA x a y => do
    let h ← ctorMoveA tr T a y
    emplace x h
    pure .unit
  | .destroy x => do
    dtor tr T x
    pure .unit
  | .assignCopy x y => do
    let r ← assignCopy tr T x y
    pure (.self r)
  | .assignMove x y => do
    let r ← assignMove tr T x y
    pure (.self r)
  | .assignFrom x u => do
    let u ← evalSrc u
    let r ← assignFrom tr T x u
    pure (.self r)
  | .deref x => do
    let p ← deref x
    let v ← readObj p
    pure (.value v)
  | .arrow x => do
    let p ← arrow x
    let v ← readObj p
    pure (.value v)
  | .modify x f => do
    let p ← deref x
    let v ← readObj p
    writeObj p (f v)
    pure .unit
  | .valueless x => do
    let b ← valueless x
    pure (.bool b)
  | .getAllocator x => do
    let a ← getAllocator x
    pure (.alloc a)
  | .swap x y => do
    swap tr x y
    pure .unit
  | .friendSwap x y => do
    friendSwap tr x y
    pure .unit

/-- One call in an environment. -/
def call (o : Op L A V X) (e : Env) (s : St L A R (Obj V)) : Res (St L A R (Obj V)) (Out L A V) :=
  step tr T o (s.enter e)

end

end Indirect

/-- What a client sees of a call that did not end the program. -/
inductive Seen (O : Type) where
  | ret (o : O)
  | exn (e : Exn)
  deriving DecidableEq, Repr

/-- The state at the start of the program. -/
def St.init {L A R B : Type} : St L A R B where
  hs _ := none
  heap _ := none
  trace := []
  env := ⟨fun _ => false, fun n => n, fun _ => 0⟩
  ai := 0
  ti := 0

end Verif
