import Verif.Fine

/-!
# indirect.h as programs of accesses

The functions of `Verif/Types.lean`, `Verif/Indirect.lean` and `Verif/IndirectOps.lean` once more, as programs (`Prog`) instead
of transitions of the machine.  The text is the same, in another monad; `Proofs/Fine.lean` shows that running these
programs without interruption is the same as the functions there.
-/

set_option autoImplicit false

namespace Verif.Fine

/-- What the headers do with a `T`: computations on addresses of objects. -/
structure FOps (L A R B X : Type) where
  make : A → (dst : Addr) → TArgs X → Prog L A R B Unit
  copyCtor : A → (dst src : Addr) → Prog L A R B Unit
  moveCtor : A → (dst src : Addr) → Prog L A R B Unit
  copyAssign : (dst src : Addr) → Prog L A R B Unit
  moveAssign : (dst src : Addr) → Prog L A R B Unit
  assignArg : (dst : Addr) → X → Prog L A R B Unit
  dtor : A → Addr → Prog L A R B Unit
  assignable : Bool
  copyAssignable : Bool

namespace FOps
variable {L A R B X : Type}

/-- `T(std::forward<U>(u))` at `dst`. -/
def makeFwd (T : FOps L A R B X) (a : A) (dst : Addr) : Fwd X → Prog L A R B Unit
  | .arg x => T.make a dst (.pack [x])
  | .lval q => T.copyCtor a dst q
  | .rval q => T.moveCtor a dst q

/-- `*dst = std::forward<U>(u)`. -/
def assignFwd (T : FOps L A R B X) (dst : Addr) : Fwd X → Prog L A R B Unit
  | .arg x => T.assignArg dst x
  | .lval q => T.copyAssign dst q
  | .rval q => T.moveAssign dst q

end FOps

section Plain
variable {L A R V X : Type}

/-- Read the object at `p`. -/
def readObj (p : Addr) : Prog L A R (Obj V) V := do
  match ← readBody p with
  | some v => pure v
  | none => Prog.undef .deadObject

/-- Change the value of the live object at `p`. -/
def writeObj (p : Addr) (v : V) : Prog L A R (Obj V) Unit := do
  let _ ← readObj p
  writeBody p (some v)

/-- The lifetime of an object with value `v` begins in the storage at `p`. -/
def beginObj (p : Addr) (v : V) (how : How) : Prog L A R (Obj V) Unit :=
  .act (.begin p (fun b => if b.isNone then some (some v) else none) [.construct p how]) .ret

/-- The lifetime of the object at `p` ends. -/
def endObj (p : Addr) : Prog L A R (Obj V) Unit := do
  let _ ← readObj p
  writeBody p none
  emit (.destroy p)

/-- The outcome of a constructor. -/
def finish (p : Addr) (how : How) : Except Exn V → Prog L A R (Obj V) Unit
  | .ok v => beginObj p v how
  | .error e => Prog.throwE e

/-- Rethrow if the assignment threw. -/
def rethrow : Option Exn → Prog L A R (Obj V) Unit
  | none => pure ()
  | some e => Prog.throwE e

/-- The operations of an owned type without indirect members. -/
def plain (T : TSpec V X) : FOps L A R (Obj V) X where
  make _ dst xs := do
    let c ← choose
    finish dst .args (T.make xs c)
  copyCtor _ dst src := do
    let v ← readObj src
    let c ← choose
    finish dst (.copyOf src) (T.copy v c)
  moveCtor _ dst src := do
    let v ← readObj src
    let c ← choose
    writeObj src (T.move v c).2
    finish dst (.moveOf src) (T.move v c).1
  copyAssign dst src := do
    let d ← readObj dst
    let v ← readObj src
    let c ← choose
    emit (.assign dst (.copyOf src))
    writeObj dst (T.copyAssign d v c).2
    rethrow (T.copyAssign d v c).1
  moveAssign dst src := do
    let d ← readObj dst
    let v ← readObj src
    let c ← choose
    emit (.assign dst (.moveOf src))
    writeObj src (T.moveAssign d v c).2.2
    writeObj dst (T.moveAssign d v c).2.1
    rethrow (T.moveAssign d v c).1
  assignArg dst x := do
    let d ← readObj dst
    let c ← choose
    emit (.assign dst .args)
    writeObj dst (T.assignArg d x c).2
    rethrow (T.assignArg d x c).1
  dtor _ p := endObj p
  assignable := T.assignable
  copyAssignable := T.copyAssignable

end Plain

namespace Indirect
section
variable {L A R B X : Type} [DecidableEq L]
variable (tr : ATraits A R) (T : FOps L A R B X)

/-- `valueless_after_move`, indirect.h:341-343. -/
def valueless (this : L) : Prog L A R B Bool := do
  let h ← getH this
  pure (h.p == none)

/-- `get_allocator`, indirect.h:345. -/
def getAllocator (this : L) : Prog L A R B A := do
  let h ← getH this
  pure h.alloc

/-- `operator*` (four overloads, indirect.h:311-329).  The four overloads differ in constness and value
category of the returned reference only; the model returns the address.  `assert(!valueless_after_move())`
is modelled as undefined behaviour (as with NDEBUG). -/
def deref (this : L) : Prog L A R B Addr := do
  let h ← getH this
  match h.p with
  | some p => pure p
  | none => Prog.undef .valuelessAccess

/-- `operator->` (two overloads, indirect.h:331-339). -/
def arrow (this : L) : Prog L A R B Addr := do
  let h ← getH this
  match h.p with
  | some p => pure p
  | none => Prog.undef .valuelessAccess

/-- `construct_from`, indirect.h:443-454.  `k` is the constructor call of `T` on the allocated storage. -/
def constructFrom (a : A) (k : A → Addr → Prog L A R B Unit) : Prog L A R B Addr := do
  let mem ← allocate (tr.res a)
  Prog.onThrow (k a mem) (deallocate (tr.res a) mem)
  pure mem

/-- `destroy_with`, indirect.h:456-459. -/
def destroyWith (a : A) (p : Addr) : Prog L A R B Unit := do
  T.dtor a p
  deallocate (tr.res a) p

/-- `reset`, indirect.h:437-441. -/
def reset (this : L) : Prog L A R B Unit := Prog.noexceptIf true do
  let h ← getH this
  match h.p with
  | none => pure ()
  | some p => do
    destroyWith tr T h.alloc p
    setP this none

/-- `indirect()`, indirect.h:96-101. -/
def ctorDefault : Prog L A R B (Handle A) := do
  let p ← constructFrom tr tr.dflt (fun a m => T.make a m .none)
  pure ⟨some p, tr.dflt⟩

/-- `indirect(U&&)`, indirect.h:103-110. -/
def ctorFrom (u : Fwd X) : Prog L A R B (Handle A) := do
  let p ← constructFrom tr tr.dflt (fun a m => T.makeFwd a m u)
  pure ⟨some p, tr.dflt⟩

/-- `indirect(in_place_t, Us&&...)`, indirect.h:112-118. -/
def ctorInPlace (us : List X) : Prog L A R B (Handle A) := do
  let p ← constructFrom tr tr.dflt (fun a m => T.make a m (.pack us))
  pure ⟨some p, tr.dflt⟩

/-- `indirect(in_place_t, initializer_list<U>, Us&&...)`, indirect.h:120-127. -/
def ctorIlist (l us : List X) : Prog L A R B (Handle A) := do
  let p ← constructFrom tr tr.dflt (fun a m => T.make a m (.ilist l us))
  pure ⟨some p, tr.dflt⟩

/-- `indirect(allocator_arg_t, const A&)`, indirect.h:145-148. -/
def ctorDefaultA (a : A) : Prog L A R B (Handle A) := do
  let p ← constructFrom tr a (fun a m => T.make a m .none)
  pure ⟨some p, a⟩

/-- `indirect(allocator_arg_t, const A&, U&&)`, indirect.h:150-157. -/
def ctorFromA (a : A) (u : Fwd X) : Prog L A R B (Handle A) := do
  let p ← constructFrom tr a (fun a m => T.makeFwd a m u)
  pure ⟨some p, a⟩

/-- `indirect(allocator_arg_t, const A&, in_place_t, U&&)`, indirect.h:159-166. -/
def ctorInPlaceOneA (a : A) (u : Fwd X) : Prog L A R B (Handle A) := do
  let p ← constructFrom tr a (fun a m => T.makeFwd a m u)
  pure ⟨some p, a⟩

/-- `indirect(allocator_arg_t, const A&, in_place_t, Us&&...)`, indirect.h:168-174. -/
def ctorInPlaceA (a : A) (us : List X) : Prog L A R B (Handle A) := do
  let p ← constructFrom tr a (fun a m => T.make a m (.pack us))
  pure ⟨some p, a⟩

/-- `indirect(allocator_arg_t, const A&, in_place_t, initializer_list<U>, Us&&...)`,
indirect.h:176-183. -/
def ctorIlistA (a : A) (l us : List X) : Prog L A R B (Handle A) := do
  let p ← constructFrom tr a (fun a m => T.make a m (.ilist l us))
  pure ⟨some p, a⟩

/-- `indirect(allocator_arg_t, const A&, const indirect&)`, indirect.h:185-195. -/
def ctorCopyA (a : A) (other : L) : Prog L A R B (Handle A) := do
  if ← valueless other then
    pure ⟨none, a⟩
  else
    let q ← deref other
    let p ← constructFrom tr a (fun a m => T.copyCtor a m q)
    pure ⟨some p, a⟩

/-- `indirect(const indirect&)`, indirect.h:129-135. -/
def ctorCopy (other : L) : Prog L A R B (Handle A) := do
  let o ← getH other
  ctorCopyA tr T (tr.socc o.alloc) other

/-- `indirect(allocator_arg_t, const A&, indirect&&)`, indirect.h:197-216.  The new object's `p_` starts
as null, so `std::swap(p_, other.p_)` returns the old `other.p_` and nulls it. -/
def ctorMoveA (a : A) (other : L) : Prog L A R B (Handle A) := Prog.noexceptIf tr.alwaysEqual do
  let o ← getH other
  if tr.alwaysEqual then
    setP other none
    pure ⟨o.p, a⟩
  else if tr.eq a o.alloc then
    setP other none
    pure ⟨o.p, a⟩
  else if !(← valueless other) then
    let q ← deref other
    let p ← constructFrom tr a (fun a m => T.moveCtor a m q)
    pure ⟨some p, a⟩
  else
    pure ⟨none, a⟩

/-- `indirect(indirect&&)`, indirect.h:137-139. -/
def ctorMove (other : L) : Prog L A R B (Handle A) := Prog.noexceptIf tr.alwaysEqual do
  let o ← getH other
  ctorMoveA tr T o.alloc other

/-- `~indirect()`, indirect.h:222.  Destructors are noexcept. -/
def dtor (this : L) : Prog L A R B Unit := Prog.noexceptIf true do
  reset tr T this
  endLife this

/-- `operator=(const indirect&)`, indirect.h:228-258.  Returns `*this`. -/
def assignCopy (this other : L) : Prog L A R B L := do
  if this = other then pure this
  else
    let updateAlloc := tr.pocca
    if ← valueless other then
      reset tr T this
    else
      let t ← getH this
      let o ← getH other
      if T.assignable && !(t.p == none) && tr.eq t.alloc o.alloc then
        let d ← deref this
        let q ← deref other
        T.copyAssign d q
      else
        let q ← deref other
        let tmp ← constructFrom tr (if updateAlloc then o.alloc else t.alloc) (fun a m => T.copyCtor a m q)
        reset tr T this
        setP this (some tmp)
    if updateAlloc then
      let o ← getH other
      setAlloc this o.alloc
    pure this

/-- `operator=(indirect&&)`, indirect.h:260-292.  `std::swap(p_, other.p_)` is two pointer writes. -/
def assignMove (this other : L) : Prog L A R B L :=
  Prog.noexceptIf (tr.pocma || tr.alwaysEqual) do
    if this = other then pure this
    else
      let updateAlloc := tr.pocma
      if ← valueless other then
        reset tr T this
      else
        let t ← getH this
        let o ← getH other
        if tr.eq t.alloc o.alloc then
          setP this o.p
          setP other t.p
          reset tr T other
        else
          let q ← deref other
          let tmp ← constructFrom tr (if updateAlloc then o.alloc else t.alloc) (fun a m => T.moveCtor a m q)
          reset tr T this
          setP this (some tmp)
      if updateAlloc then
        let o ← getH other
        setAlloc this o.alloc
      pure this

/-- `operator=(U&&)`, indirect.h:294-305. -/
def assignFrom (this : L) (u : Fwd X) : Prog L A R B L := do
  if ← valueless this then
    let t ← getH this
    let p ← constructFrom tr t.alloc (fun a m => T.makeFwd a m u)
    setP this (some p)
  else
    let d ← deref this
    T.assignFwd d u
  pure this

/-- Member `swap`, indirect.h:351-366. -/
def swap (this other : L) : Prog L A R B Unit := Prog.noexceptIf (tr.pocs || tr.alwaysEqual) do
  let t ← getH this
  let o ← getH other
  if tr.pocs then
    setAlloc this o.alloc
    setAlloc other t.alloc
    setP this o.p
    setP other t.p
  else if tr.eq t.alloc o.alloc then
    setP this o.p
    setP other t.p
  else
    Prog.undef .unreachable

/-- Friend `swap`, indirect.h:368-371. -/
def friendSwap (lhs rhs : L) : Prog L A R B Unit := Prog.noexceptIf (tr.pocs || tr.alwaysEqual) do
  swap tr lhs rhs

end

section
variable {L A R V X : Type} [DecidableEq L]

/-- Client code evaluates the argument expression. -/
def evalSrc : Src L X → Prog L A R (Obj V) (Fwd X)
  | .arg x => pure (.arg x)
  | .lval y => do
    let q ← deref y
    pure (.lval q)
  | .rval y => do
    let q ← deref y
    pure (.rval q)

variable (tr : ATraits A R) (T : FOps L A R (Obj V) X)

/-- The value constructors, without (`none`) or with (`some a`) allocator argument.
Without an allocator argument a single in-place argument is a one-element pack (indirect.h:112-118). -/
def construct : Option A → Ctor L X → Prog L A R (Obj V) (Handle A)
  | none, .default => ctorDefault tr T
  | none, .from u => do
    let u ← evalSrc u
    ctorFrom tr T u
  | none, .inPlace us => ctorInPlace tr T us
  | none, .inPlaceOne u => do
    let u ← evalSrc u
    ctorFrom tr T u
  | none, .ilist l us => ctorIlist tr T l us
  | some a, .default => ctorDefaultA tr T a
  | some a, .from u => do
    let u ← evalSrc u
    ctorFromA tr T a u
  | some a, .inPlace us => ctorInPlaceA tr T a us
  | some a, .inPlaceOne u => do
    let u ← evalSrc u
    ctorInPlaceOneA tr T a u
  | some a, .ilist l us => ctorIlistA tr T a l us

/-- One call. -/
def step : Op L A V X → Prog L A R (Obj V) (Out L A V)
  | .make x a c => do
    let h ← construct tr T a c
    emplace x h
    pure .unit
  | .copy x y => do
    let h ← ctorCopy tr T y
    emplace x h
    pure .unit
  | .copyA x a y => do
    let h ← ctorCopyA tr T a y
    emplace x h
    pure .unit
  | .move x y => do
    let h ← ctorMove tr T y
    emplace x h
    pure .unit
  | .moveA x a y => do
    let h ← ctorMoveA tr T a y
    emplace x h
    pure .unit
  | .destroy x => do
    dtor tr T x
    pure .unit
  | .assignCopy x y => do
    let r ← assignCopy tr T x y
    pure (.self r)
  | .assignMove x y => do
    let r ← assignMove tr T x y
    pure (.self r)
  | .assignFrom x u => do
    let u ← evalSrc u
    let r ← assignFrom tr T x u
    pure (.self r)
  | .deref x => do
    let p ← deref x
    let v ← readObj p
    pure (.value v)
  | .arrow x => do
    let p ← arrow x
    let v ← readObj p
    pure (.value v)
  | .modify x f => do
    let p ← deref x
    let v ← readObj p
    writeObj p (f v)
    pure .unit
  | .valueless x => do
    let b ← valueless x
    pure (.bool b)
  | .getAllocator x => do
    let a ← getAllocator x
    pure (.alloc a)
  | .swap x y => do
    swap tr x y
    pure .unit
  | .friendSwap x y => do
    friendSwap tr x y
    pure .unit

end
end Indirect
end Verif.Fine
