import Verif.IndirectFine
import Verif.Indirect14

/-!
# indirect_cxx14.h as programs of accesses

The functions of `Verif/Indirect14.lean` once more, as programs (`Prog`) instead of transitions of the machine.  The text is
the same, in another monad; `Proofs/Fine14.lean` shows that running these programs without interruption is the same.
-/

set_option autoImplicit false

namespace Verif.Fine.Indirect14
open Verif Verif.Fine

section
variable {L A R B X : Type} [DecidableEq L]
variable (tr : ATraits A R) (T : FOps L A R B X)

/-- `valueless_after_move`, indirect_cxx14.h:347-349. -/
def valueless (this : L) : Prog L A R B Bool := do
  let h ← getH this
  pure (h.p == none)

/-- `get_allocator`, indirect_cxx14.h:351. -/
def getAllocator (this : L) : Prog L A R B A := do
  let h ← getH this
  pure h.alloc

/-- `operator*` (four overloads, indirect_cxx14.h:317-335); see `Indirect.deref`. -/
def deref (this : L) : Prog L A R B Addr := do
  let h ← getH this
  match h.p with
  | some p => pure p
  | none => Prog.undef .valuelessAccess

/-- `operator->` (two overloads, indirect_cxx14.h:337-345). -/
def arrow (this : L) : Prog L A R B Addr := do
  let h ← getH this
  match h.p with
  | some p => pure p
  | none => Prog.undef .valuelessAccess

/-- `*p_` without a check (used at indirect_cxx14.h:255, 261, 291 and 312). -/
def derefP (this : L) : Prog L A R B Addr := do
  let h ← getH this
  match h.p with
  | some p => pure p
  | none => Prog.undef .valuelessAccess

/-- `construct_from`, indirect_cxx14.h:555-565. -/
def constructFrom (a : A) (k : A → Addr → Prog L A R B Unit) : Prog L A R B Addr := do
  let mem ← allocate (tr.res a)
  Prog.onThrow (k a mem) (deallocate (tr.res a) mem)
  pure mem

/-- `destroy_with`, indirect_cxx14.h:567-570. -/
def destroyWith (a : A) (p : Addr) : Prog L A R B Unit := do
  T.dtor a p
  deallocate (tr.res a) p

/-- `reset`, indirect_cxx14.h:549-553. -/
def reset (this : L) : Prog L A R B Unit := Prog.noexceptIf true do
  let h ← getH this
  match h.p with
  | none => pure ()
  | some p => do
    destroyWith tr T h.alloc p
    setP this none

/-- `indirect(allocator_arg_t, const A&)`, indirect_cxx14.h:116-118. -/
def ctorDefaultA (a : A) : Prog L A R B (Handle A) := do
  let p ← constructFrom tr a (fun a m => T.make a m .none)
  pure ⟨some p, a⟩

/-- `indirect()`, indirect_cxx14.h:120-123. -/
def ctorDefault : Prog L A R B (Handle A) := ctorDefaultA tr T tr.dflt

/-- `indirect(allocator_arg_t, const A&, U&&)`, indirect_cxx14.h:125-140.  The constraint admits only `U` with
`remove_cv<remove_reference<U>>` equal to `T`, that is, `u` is not `.arg`. -/
def ctorFromA (a : A) (u : Fwd X) : Prog L A R B (Handle A) := do
  let p ← constructFrom tr a (fun a m => T.makeFwd a m u)
  pure ⟨some p, a⟩

/-- `indirect(U&&)`, indirect_cxx14.h:142-155. -/
def ctorFrom (u : Fwd X) : Prog L A R B (Handle A) := ctorFromA tr T tr.dflt u

/-- `indirect(allocator_arg_t, const A&, in_place_t, Us&&...)`, indirect_cxx14.h:157-163. -/
def ctorInPlaceA (a : A) (us : List X) : Prog L A R B (Handle A) := do
  let p ← constructFrom tr a (fun a m => T.make a m (.pack us))
  pure ⟨some p, a⟩

/-- `indirect(in_place_t, Us&&...)`, indirect_cxx14.h:165-173. -/
def ctorInPlace (us : List X) : Prog L A R B (Handle A) := ctorInPlaceA tr T tr.dflt us

/-- The constructor of `ctorInPlaceA` with one argument, which may be a `T`, indirect_cxx14.h:157-163. -/
def ctorInPlaceOneA (a : A) (u : Fwd X) : Prog L A R B (Handle A) := do
  let p ← constructFrom tr a (fun a m => T.makeFwd a m u)
  pure ⟨some p, a⟩

/-- The constructor of `ctorInPlace` with one argument, which may be a `T`, indirect_cxx14.h:165-173. -/
def ctorInPlaceOne (u : Fwd X) : Prog L A R B (Handle A) := ctorInPlaceOneA tr T tr.dflt u

/-- `indirect(allocator_arg_t, const A&, in_place_t, initializer_list<U>, Us&&...)`, indirect_cxx14.h:175-184. -/
def ctorIlistA (a : A) (l us : List X) : Prog L A R B (Handle A) := do
  let p ← constructFrom tr a (fun a m => T.make a m (.ilist l us))
  pure ⟨some p, a⟩

/-- `indirect(in_place_t, initializer_list<U>, Us&&...)`, indirect_cxx14.h:186-196. -/
def ctorIlist (l us : List X) : Prog L A R B (Handle A) := ctorIlistA tr T tr.dflt l us

/-- `indirect(allocator_arg_t, const A&, const indirect&)`, indirect_cxx14.h:198-207. -/
def ctorCopyA (a : A) (other : L) : Prog L A R B (Handle A) := do
  if ← valueless other then
    pure ⟨none, a⟩
  else
    let q ← deref other
    let p ← constructFrom tr a (fun a m => T.copyCtor a m q)
    pure ⟨some p, a⟩

/-- `indirect(const indirect&)`, indirect_cxx14.h:209-213. -/
def ctorCopy (other : L) : Prog L A R B (Handle A) := do
  let o ← getH other
  ctorCopyA tr T (tr.socc o.alloc) other

/-- `indirect(allocator_arg_t, const A&, indirect&&)`, indirect_cxx14.h:215-231. -/
def ctorMoveA (a : A) (other : L) : Prog L A R B (Handle A) := Prog.noexceptIf tr.alwaysEqual do
  let o ← getH other
  if tr.alwaysEqual then
    setP other none
    pure ⟨o.p, a⟩
  else
    if tr.eq a o.alloc then
      setP other none
      pure ⟨o.p, a⟩
    else
      if !(← valueless other) then
        let q ← deref other
        let p ← constructFrom tr a (fun a m => T.moveCtor a m q)
        pure ⟨some p, a⟩
      else
        pure ⟨none, a⟩

/-- `indirect(indirect&&)`, indirect_cxx14.h:233-235. -/
def ctorMove (other : L) : Prog L A R B (Handle A) := Prog.noexceptIf tr.alwaysEqual do
  let o ← getH other
  ctorMoveA tr T o.alloc other

/-- `~indirect()`, indirect_cxx14.h:237. -/
def dtor (this : L) : Prog L A R B Unit := Prog.noexceptIf true do
  reset tr T this
  endLife this

/-- `operator=(const indirect&)`, indirect_cxx14.h:239-268. -/
def assignCopy (this other : L) : Prog L A R B L := do
  if this = other then pure this
  else
    let updateAlloc := tr.pocca
    if ← valueless other then
      reset tr T this
    else
      let t ← getH this
      let o ← getH other
      if T.copyAssignable && !(t.p == none) && tr.eq t.alloc o.alloc then
        let d ← derefP this
        let q ← deref other
        T.copyAssign d q
      else
        let q ← derefP other
        let tmp ← constructFrom tr (if updateAlloc then o.alloc else t.alloc) (fun a m => T.copyCtor a m q)
        reset tr T this
        setP this (some tmp)
    if updateAlloc then
      let o ← getH other
      setAlloc this o.alloc
    pure this

/-- `operator=(indirect&&)`, indirect_cxx14.h:270-301. -/
def assignMove (this other : L) : Prog L A R B L :=
  Prog.noexceptIf (tr.pocma || tr.alwaysEqual) do
    if this = other then pure this
    else
      let updateAlloc := tr.pocma
      if ← valueless other then
        reset tr T this
      else
        let t ← getH this
        let o ← getH other
        if tr.eq t.alloc o.alloc then
          setP this o.p
          setP other t.p
          reset tr T other
        else
          let q ← derefP other
          let tmp ← constructFrom tr (if updateAlloc then o.alloc else t.alloc) (fun a m => T.moveCtor a m q)
          reset tr T this
          setP this (some tmp)
      if updateAlloc then
        let o ← getH other
        setAlloc this o.alloc
      pure this

/-- `operator=(U&&)`, indirect_cxx14.h:303-315. -/
def assignFrom (this : L) (u : Fwd X) : Prog L A R B L := do
  if ← valueless this then
    let a ← getAllocator this
    let p ← constructFrom tr a (fun a m => T.makeFwd a m u)
    setP this (some p)
  else
    let d ← derefP this
    T.assignFwd d u
  pure this

/-- Member `swap`, indirect_cxx14.h:353-368. -/
def swap (this other : L) : Prog L A R B Unit := Prog.noexceptIf (tr.pocs || tr.alwaysEqual) do
  let t ← getH this
  let o ← getH other
  if tr.pocs then
    setAlloc this o.alloc
    setAlloc other t.alloc
    setP this o.p
    setP other t.p
  else
    if tr.eq t.alloc o.alloc then
      setP this o.p
      setP other t.p
    else
      Prog.undef .unreachable

/-- Friend `swap`, indirect_cxx14.h:370-373. -/
def friendSwap (lhs rhs : L) : Prog L A R B Unit := Prog.noexceptIf (tr.pocs || tr.alwaysEqual) do
  swap tr lhs rhs

end

section
variable {L A R V X : Type} [DecidableEq L]

/-- Client code evaluates the argument expression. -/
def evalSrc : Src L X → Prog L A R (Obj V) (Fwd X)
  | .arg x => pure (.arg x)
  | .lval y => do
    let q ← deref y
    pure (.lval q)
  | .rval y => do
    let q ← deref y
    pure (.rval q)

variable (tr : ATraits A R) (T : FOps L A R (Obj V) X)

/-- The value constructors, without or with allocator argument; as `Indirect.construct`. -/
def construct : Option A → Ctor L X → Prog L A R (Obj V) (Handle A)
  | none, .default => ctorDefault tr T
  | none, .from u => do
    let u ← evalSrc u
    ctorFrom tr T u
  | none, .inPlace us => ctorInPlace tr T us
  | none, .inPlaceOne u => do
    let u ← evalSrc u
    ctorInPlaceOne tr T u
  | none, .ilist l us => ctorIlist tr T l us
  | some a, .default => ctorDefaultA tr T a
  | some a, .from u => do
    let u ← evalSrc u
    ctorFromA tr T a u
  | some a, .inPlace us => ctorInPlaceA tr T a us
  | some a, .inPlaceOne u => do
    let u ← evalSrc u
    ctorInPlaceOneA tr T a u
  | some a, .ilist l us => ctorIlistA tr T a l us

/-- One call; as `Indirect.step`. -/
def step : Op L A V X → Prog L A R (Obj V) (Out L A V)
  | .make x a c => do
    let h ← construct tr T a c
    emplace x h
    pure .unit
  | .copy x y => do
    let h ← ctorCopy tr T y
    emplace x h
    pure .unit
  | .copyA x a y => do
    let h ← ctorCopyA tr T a y
    emplace x h
    pure .unit
  | .move x y => do
    let h ← ctorMove tr T y
    emplace x h
    pure .unit
  | .moveA x a y => do
    let h ← ctorMoveA tr T a y
    emplace x h
    pure .unit
  | .destroy x => do
    dtor tr T x
    pure .unit
  | .assignCopy x y => do
    let r ← assignCopy tr T x y
    pure (.self r)
  | .assignMove x y => do
    let r ← assignMove tr T x y
    pure (.self r)
  | .assignFrom x u => do
    let u ← evalSrc u
    let r ← assignFrom tr T x u
    pure (.self r)
  | .deref x => do
    let p ← deref x
    let v ← readObj p
    pure (.value v)
  | .arrow x => do
    let p ← arrow x
    let v ← readObj p
    pure (.value v)
  | .modify x f => do
    let p ← deref x
    let v ← readObj p
    writeObj p (f v)
    pure .unit
  | .valueless x => do
    let b ← valueless x
    pure (.bool b)
  | .getAllocator x => do
    let a ← getAllocator x
    pure (.alloc a)
  | .swap x y => do
    swap tr x y
    pure .unit
  | .friendSwap x y => do
    friendSwap tr x y
    pure .unit

end
end Verif.Fine.Indirect14
