import Verif.IndirectOps

/-!
# indirect.h with pointers that are not plain

`std::allocator_traits<A>::pointer` may be a class.  The representation of such a pointer may depend on where the pointer object is: pointers into shared
memory store the distance from themselves to what they point to.  In `Verif/Indirect.lean` pointers are plain (see `ATraits`); here the functions of indirect.h
are modelled again, with a pointer type that is a parameter and with every pointer object they create, copy and read.  Line numbers refer to /repo/indirect.h.

The second part says which operations on pointers each header needs.
-/

set_option autoImplicit false

namespace Verif.Fancy
open Verif

/-- Where a pointer object is: the member `p_` of the `indirect` at `l`, or a variable, parameter or result of a function. -/
inductive Site (L : Type) where
  | member (l : L)
  | temp (n : Nat)
  deriving DecidableEq, Repr

/-- A pointer type.  `P`: representations of pointer objects. -/
structure Pointers (L P : Type) where
  /-- the representation of a pointer object at that place which points there (or is null) -/
  point : Site L → Option Addr → P
  /-- where a pointer object at that place points (`std::to_address`; null: `none`) -/
  target : Site L → P → Option Addr

/-- The requirements on pointer types ([nullablepointer.requirements], [allocator.requirements.general]): a pointer points to what it is made to point
to, wherever it is. -/
structure Pointers.Sound {L P : Type} (Q : Pointers L P) : Prop where
  target_point : ∀ s a, Q.target s (Q.point s a) = a

/-- A copy of a pointer, at another place: copy or move construction or assignment. -/
def Pointers.copy {L P : Type} (Q : Pointers L P) (src dst : Site L) (p : P) : P := Q.point dst (Q.target src p)

/-- The data members of an `indirect`: indirect.h:428-435. -/
structure FHandle (A P : Type) where
  p : P
  alloc : A
  deriving DecidableEq, Repr

/-- Machine states, as `St` but with such `indirect`s. -/
structure FSt (L A R B P : Type) where
  hs : L → Option (FHandle A P)
  heap : Addr → Option (Cell R B)
  trace : List (Ev R)
  env : Env
  ai : Nat
  ti : Nat

section
variable {L A R B X P : Type} [DecidableEq L] [DecidableEq R] [Body B]
variable (Q : Pointers L P)

/-- The same state, with plain pointers. -/
def forget (s : FSt L A R B P) : St L A R B where
  hs l := (s.hs l).map fun h => ⟨Q.target (.member l) h.p, h.alloc⟩
  heap := s.heap
  trace := s.trace
  env := s.env
  ai := s.ai
  ti := s.ti

/-- The same objects, with the heap, trace and environment of `t`. -/
def FSt.with (s : FSt L A R B P) (t : St L A R B) : FSt L A R B P :=
  ⟨s.hs, t.heap, t.trace, t.env, t.ai, t.ti⟩

/-- What allocators and owned types do.  They do not change the `indirect`s. -/
def outside {α : Type} (m : M (St L A R B) α) : M (FSt L A R B P) α := fun s =>
  match m (forget Q s) with
  | .ok a t => .ok a (s.with t)
  | .threw e t => .threw e (s.with t)
  | .terminated => .terminated
  | .ub u => .ub u
  | .diverged => .diverged

/-- Read the data members of the object at `l`. -/
def getF (l : L) : M (FSt L A R B P) (FHandle A P) := fun s =>
  match s.hs l with
  | some h => .ok h s
  | none => .ub .deadHandle

/-- Write the pointer member of the object at `l`. -/
def putP (l : L) (p : P) : M (FSt L A R B P) Unit := fun s =>
  match s.hs l with
  | some h => .ok () { s with hs := upd s.hs l (some { h with p := p }) }
  | none => .ub .deadHandle

/-- Write the allocator member. -/
def putAlloc (l : L) (a : A) : M (FSt L A R B P) Unit := fun s =>
  match s.hs l with
  | some h => .ok () { s with hs := upd s.hs l (some { h with alloc := a }) }
  | none => .ub .deadHandle

/-- The lifetime of an object with these data members begins at `l`. -/
def putNew (l : L) (h : FHandle A P) : M (FSt L A R B P) Unit := fun s =>
  match s.hs l with
  | some _ => .ub .liveHandle
  | none => .ok () { s with hs := upd s.hs l (some h) }

/-- The lifetime of the object at `l` ends. -/
def putEnd (l : L) : M (FSt L A R B P) Unit := fun s =>
  match s.hs l with
  | some _ => .ok () { s with hs := upd s.hs l none }
  | none => .ub .deadHandle

/-- `*p` or `std::to_address(p)` of a pointer object at `s`, for access to what it points to. -/
def address (s : Site L) (p : P) : M (FSt L A R B P) Addr :=
  match Q.target s p with
  | some q => pure q
  | none => M.undef .deadObject

/-! ### The functions -/

/-- Where the variables, parameters and results of the functions below are: the variable `mem` of `construct_from`. -/
def mem : Site L := .temp 0

/-- The result of `construct_from`. -/
def result : Site L := .temp 1

/-- The parameter `p` of `destroy_with`. -/
def param : Site L := .temp 2

/-- The variable `tmp` of the assignment operators. -/
def tmp : Site L := .temp 3

/-- The variable of `std::swap`. -/
def swapTmp : Site L := .temp 4

/-- The result of `operator->`. -/
def arrowResult : Site L := .temp 5

/-- The parameter of `allocator_traits::deallocate`. -/
def freed : Site L := .temp 6

variable (tr : ATraits A R) (T : TOps (St L A R B) A X)

/-- `valueless_after_move`: `p_ == nullptr`, indirect.h:341-343. -/
def valueless (this : L) : M (FSt L A R B P) Bool := do
  let h ← getF this
  pure (Q.target (.member this) h.p == none)

/-- `get_allocator`, indirect.h:345. -/
def getAllocator (this : L) : M (FSt L A R B P) A := do
  let h ← getF this
  pure h.alloc

/-- `operator*`: `*p_`, indirect.h:311-329. -/
def deref (this : L) : M (FSt L A R B P) Addr := do
  let h ← getF this
  match Q.target (.member this) h.p with
  | some p => pure p
  | none => M.undef .valuelessAccess

/-- `operator->` returns a copy of `p_`, indirect.h:331-339. -/
def arrow (this : L) : M (FSt L A R B P) P := do
  let h ← getF this
  match Q.target (.member this) h.p with
  | some _ => pure (Q.copy (.member this) arrowResult h.p)
  | none => M.undef .valuelessAccess

/-- `allocator_traits::deallocate(alloc, p, 1)` with a pointer object at `s`. -/
def free (r : R) (s : Site L) (p : P) : M (FSt L A R B P) Unit := do
  let q ← address Q freed (Q.copy s freed p)
  outside Q (deallocate r q)

/-- `construct_from`, indirect.h:443-454.  The result is at `result`. -/
def constructFrom (a : A) (k : A → Addr → M (St L A R B) Unit) : M (FSt L A R B P) P := do
  let q ← outside Q (allocate (tr.res a))
  let m := Q.point mem (some q)
  M.onThrow (do let d ← address Q mem m; outside Q (k a d)) (free Q (tr.res a) mem m)
  pure (Q.copy mem result m)

/-- `destroy_with`, indirect.h:456-459.  The parameter is at `param`. -/
def destroyWith (a : A) (p : P) : M (FSt L A R B P) Unit := do
  let d ← address Q param p
  outside Q (T.dtor a d)
  free Q (tr.res a) param p

/-- `reset`, indirect.h:437-441. -/
def reset (this : L) : M (FSt L A R B P) Unit := M.noexceptIf true do
  let h ← getF this
  if Q.target (.member this) h.p == none then pure ()
  else
    destroyWith Q tr T h.alloc (Q.copy (.member this) param h.p)
    putP this (Q.point (.member this) none)

/-- `p_ = construct_from(alloc_, ...)` in the constructors of the object at `this`: indirect.h:96-183. -/
def ctor (this : L) (a : A) (k : A → Addr → M (St L A R B) Unit) : M (FSt L A R B P) (FHandle A P) := do
  let p ← constructFrom Q tr a k
  pure ⟨Q.copy result (.member this) p, a⟩

/-- `indirect(allocator_arg_t, const A&, const indirect&)`, indirect.h:185-195. -/
def ctorCopyA (this : L) (a : A) (other : L) : M (FSt L A R B P) (FHandle A P) := do
  if ← valueless Q other then
    pure ⟨Q.point (.member this) none, a⟩
  else
    let q ← deref Q other
    ctor Q tr this a (fun a m => T.copyCtor a m q)

/-- `indirect(const indirect&)`, indirect.h:129-135. -/
def ctorCopy (this other : L) : M (FSt L A R B P) (FHandle A P) := do
  let o ← getF other
  ctorCopyA Q tr T this (tr.socc o.alloc) other

/-- `std::swap(p, q)` of pointers at `s` and `t`: a variable, and two assignments.  The new values of both. -/
def swapP (s t : Site L) (p q : P) : P × P :=
  let v := Q.copy s swapTmp p
  (Q.copy t s q, Q.copy swapTmp t v)

/-- `indirect(allocator_arg_t, const A&, indirect&&)`, indirect.h:197-216. -/
def ctorMoveA (this : L) (a : A) (other : L) : M (FSt L A R B P) (FHandle A P) := M.noexceptIf tr.alwaysEqual do
  let o ← getF other
  let p := Q.point (.member this) none
  if tr.alwaysEqual then
    let r := swapP Q (.member this) (.member other) p o.p
    putP other r.2
    pure ⟨r.1, a⟩
  else if tr.eq a o.alloc then
    let r := swapP Q (.member this) (.member other) p o.p
    putP other r.2
    pure ⟨r.1, a⟩
  else if !(← valueless Q other) then
    let q ← deref Q other
    ctor Q tr this a (fun a m => T.moveCtor a m q)
  else
    pure ⟨Q.point (.member this) none, a⟩

/-- `indirect(indirect&&)`, indirect.h:137-139. -/
def ctorMove (this other : L) : M (FSt L A R B P) (FHandle A P) := M.noexceptIf tr.alwaysEqual do
  let o ← getF other
  ctorMoveA Q tr T this o.alloc other

/-- `~indirect()`, indirect.h:222. -/
def dtor (this : L) : M (FSt L A R B P) Unit := M.noexceptIf true do
  reset Q tr T this
  putEnd this

/-- `operator=(const indirect&)`, indirect.h:228-258. -/
def assignCopy (this other : L) : M (FSt L A R B P) L := do
  if this = other then pure this
  else
    let updateAlloc := tr.pocca
    if ← valueless Q other then
      reset Q tr T this
    else
      let t ← getF this
      let o ← getF other
      if T.assignable && !(Q.target (.member this) t.p == none) && tr.eq t.alloc o.alloc then
        let d ← deref Q this
        let q ← deref Q other
        outside Q (T.copyAssign d q)
      else
        let q ← deref Q other
        let r ← constructFrom Q tr (if updateAlloc then o.alloc else t.alloc) (fun a m => T.copyCtor a m q)
        let v := Q.copy result tmp r
        reset Q tr T this
        putP this (Q.copy tmp (.member this) v)
    if updateAlloc then
      let o ← getF other
      putAlloc this o.alloc
    pure this

/-- `operator=(indirect&&)`, indirect.h:260-292. -/
def assignMove (this other : L) : M (FSt L A R B P) L :=
  M.noexceptIf (tr.pocma || tr.alwaysEqual) do
    if this = other then pure this
    else
      let updateAlloc := tr.pocma
      if ← valueless Q other then
        reset Q tr T this
      else
        let t ← getF this
        let o ← getF other
        if tr.eq t.alloc o.alloc then
          let r := swapP Q (.member this) (.member other) t.p o.p
          putP this r.1
          putP other r.2
          reset Q tr T other
        else
          let q ← deref Q other
          let r ← constructFrom Q tr (if updateAlloc then o.alloc else t.alloc) (fun a m => T.moveCtor a m q)
          let v := Q.copy result tmp r
          reset Q tr T this
          putP this (Q.copy tmp (.member this) v)
      if updateAlloc then
        let o ← getF other
        putAlloc this o.alloc
      pure this

/-- `operator=(U&&)`, indirect.h:294-305. -/
def assignFrom (this : L) (u : Fwd X) : M (FSt L A R B P) L := do
  if ← valueless Q this then
    let t ← getF this
    let r ← constructFrom Q tr t.alloc (fun a m => T.makeFwd a m u)
    putP this (Q.copy result (.member this) r)
  else
    let d ← deref Q this
    outside Q (T.assignFwd d u)
  pure this

/-- Member `swap`, indirect.h:351-366. -/
def swap (this other : L) : M (FSt L A R B P) Unit := M.noexceptIf (tr.pocs || tr.alwaysEqual) do
  let t ← getF this
  let o ← getF other
  let r := swapP Q (.member this) (.member other) t.p o.p
  if tr.pocs then
    putAlloc this o.alloc
    putAlloc other t.alloc
    putP this r.1
    putP other r.2
  else if tr.eq t.alloc o.alloc then
    putP this r.1
    putP other r.2
  else
    M.undef .unreachable

/-- Friend `swap`, indirect.h:368-371. -/
def friendSwap (lhs rhs : L) : M (FSt L A R B P) Unit := M.noexceptIf (tr.pocs || tr.alwaysEqual) do
  swap Q tr lhs rhs

end

/-! ### Calls -/

section
variable {L A R V X P : Type} [DecidableEq L] [DecidableEq R] (Q : Pointers L P)

/-- Client code evaluates the argument expression; as `Indirect.evalSrc`. -/
def evalSrc : Src L X → M (FSt L A R (Obj V) P) (Fwd X)
  | .arg x => pure (.arg x)
  | .lval y => do
    let q ← deref Q y
    pure (.lval q)
  | .rval y => do
    let q ← deref Q y
    pure (.rval q)

variable (tr : ATraits A R) (T : TOps (St L A R (Obj V)) A X)

/-- The value constructors of the object at `this`: indirect.h:96-127 and 145-183. -/
def construct (this : L) (a : Option A) : Ctor L X → M (FSt L A R (Obj V) P) (FHandle A P)
  | .default => ctor Q tr this (a.getD tr.dflt) (fun a m => T.make a m .none)
  | .from u => do
    let u ← evalSrc Q u
    ctor Q tr this (a.getD tr.dflt) (fun a m => T.makeFwd a m u)
  | .inPlace us => ctor Q tr this (a.getD tr.dflt) (fun a m => T.make a m (.pack us))
  | .inPlaceOne u => do
    let u ← evalSrc Q u
    ctor Q tr this (a.getD tr.dflt) (fun a m => T.makeFwd a m u)
  | .ilist l us => ctor Q tr this (a.getD tr.dflt) (fun a m => T.make a m (.ilist l us))

/-- One call; as `Indirect.step`. -/
def step : Op L A V X → M (FSt L A R (Obj V) P) (Out L A V)
  | .make x a c => do
    let h ← construct Q tr T x a c
    putNew x h
    pure .unit
  | .copy x y => do
    let h ← ctorCopy Q tr T x y
    putNew x h
    pure .unit
  | .copyA x a y => do
    let h ← ctorCopyA Q tr T x a y
    putNew x h
    pure .unit
  | .move x y => do
    let h ← ctorMove Q tr T x y
    putNew x h
    pure .unit
  | .moveA x a y => do
    let h ← ctorMoveA Q tr T x a y
    putNew x h
    pure .unit
  | .destroy x => do
    dtor Q tr T x
    pure .unit
  | .assignCopy x y => do
    let r ← assignCopy Q tr T x y
    pure (.self r)
  | .assignMove x y => do
    let r ← assignMove Q tr T x y
    pure (.self r)
  | .assignFrom x u => do
    let u ← evalSrc Q u
    let r ← assignFrom Q tr T x u
    pure (.self r)
  | .deref x => do
    let p ← deref Q x
    let v ← outside Q (readObj p)
    pure (.value v)
  | .arrow x => do
    let p ← arrow Q x
    let q ← address Q arrowResult p
    let v ← outside Q (readObj q)
    pure (.value v)
  | .modify x f => do
    let p ← deref Q x
    let v ← outside Q (readObj p)
    outside Q (writeObj p (f v))
    pure .unit
  | .valueless x => do
    let b ← valueless Q x
    pure (.bool b)
  | .getAllocator x => do
    let a ← getAllocator x
    pure (.alloc a)
  | .swap x y => do
    swap Q tr x y
    pure .unit
  | .friendSwap x y => do
    friendSwap Q tr x y
    pure .unit

/-- Start a call in environment `e`. -/
def FSt.enter (s : FSt L A R (Obj V) P) (e : Env) : FSt L A R (Obj V) P := { s with env := e, ai := 0, ti := 0 }

/-- One call in an environment. -/
def call (o : Op L A V X) (e : Env) (s : FSt L A R (Obj V) P) : Res (FSt L A R (Obj V) P) (Out L A V) :=
  step Q tr T o (s.enter e)

/-- The state at the start of the program. -/
def FSt.init : FSt L A R (Obj V) P where
  hs _ := none
  heap _ := none
  trace := []
  env := ⟨fun _ => false, fun n => n, fun _ => 0⟩
  ai := 0
  ti := 0

end

/-! ### Which operations on pointers the headers need -/

/-- What code may do with pointers from an allocator. -/
inductive Need where
  /-- be null, be set to null, be compared with null -/
  | null
  /-- be copied, assigned, swapped and passed back to the allocator -/
  | copy
  /-- `*p` -/
  | deref
  /-- `std::to_address(p)` -/
  | toAddress
  /-- conversion of `pointer` to `const_pointer` -/
  | toConst
  /-- implicit conversion to a plain pointer -/
  | toRaw
  /-- implicit conversion from a plain pointer -/
  | fromRaw
  /-- be a plain pointer: an argument for a parameter `T*` with deduced `T`, of `allocator_traits::construct` and `destroy` -/
  | raw
  deriving DecidableEq, Repr

/-- An allocator's pointer types, those of rebound allocators included. -/
structure PointerType where
  toRaw : Bool
  fromRaw : Bool
  raw : Bool
  deriving DecidableEq, Repr

/-- Plain pointers convert to themselves. -/
def PointerType.Sensible (t : PointerType) : Prop := t.raw = true → t.toRaw = true ∧ t.fromRaw = true

/-- What the requirements on allocators promise ([allocator.requirements.general]), and what depends on the type. -/
def PointerType.provides (t : PointerType) : Need → Bool
  | .null => true
  | .copy => true
  | .deref => true
  | .toAddress => true
  | .toConst => true
  | .toRaw => t.toRaw
  | .fromRaw => t.fromRaw
  | .raw => t.raw

/-- The four headers. -/
inductive Header where
  | indirect20
  | indirect14
  | polymorphic20
  | polymorphic14
  deriving DecidableEq, Repr

/-- What a program does with owners. -/
inductive Use where
  /-- any construction that makes an owned object -/
  | make
  | copy
  | move
  | destroy
  | copyAssign
  | moveAssign
  | swap
  /-- `operator*`, `operator->`, `valueless_after_move` -/
  | access
  deriving DecidableEq, Repr

/-- `construct_from` and the assignment of its result: indirect.h:443-454, indirect_cxx14.h:555-565 (`T* mem = allocate(...)`, and a result `T*`).  For
polymorphic a control block, with the virtual functions it has: polymorphic.h:77-114 and 128-145, polymorphic_cxx14.h:132-169 and 176-192
(`control_block::p_ = std::addressof(...)`, `construct(cb_alloc, mem, ...)`, `return mem`, `deallocate(cb_alloc, this, 1)`). -/
def makeNeeds : Header → List Need
  | .indirect20 => [.copy, .toAddress]
  | .indirect14 => [.toRaw, .fromRaw]
  | .polymorphic20 => [.fromRaw, .raw, .toRaw]
  | .polymorphic14 => [.fromRaw, .raw, .toRaw]

/-- `reset` and `destroy_with`: indirect.h:437-441 and 456-459, indirect_cxx14.h:549-553 and 567-570 (a parameter `T*`).  The pointer to the control block of
polymorphic is a plain one. -/
def resetNeeds : Header → List Need
  | .indirect20 => [.null, .copy, .toAddress]
  | .indirect14 => [.null, .toRaw, .fromRaw]
  | .polymorphic20 => []
  | .polymorphic14 => []

/-- What each use needs. -/
def needs (h : Header) : Use → List Need
  | .make => makeNeeds h
  | .copy => [.null, .deref] ++ makeNeeds h
  | .move => [.null, .copy, .deref] ++ makeNeeds h
  | .destroy => resetNeeds h
  | .copyAssign => [.null, .copy, .deref] ++ makeNeeds h ++ resetNeeds h
  | .moveAssign => [.null, .copy, .deref] ++ makeNeeds h ++ resetNeeds h
  | .swap => [.copy]
  | .access => [.null, .copy, .deref, .toConst]

/-- Does the use compile with that pointer type? -/
def works (h : Header) (t : PointerType) (u : Use) : Bool := (needs h u).all t.provides

end Verif.Fancy
