import Verif.Types

/-!
# indirect.h

One definition per function of `xyz::indirect` (C++20).  Line numbers refer to /repo/indirect.h.
Constructors return the data members of the new object (see `emplace`); the `static_assert`s and
`requires` clauses are compile-time and are not part of these definitions (the constraint logic of the
forwarding overloads is in `Verif/Overload.lean`).
-/

set_option autoImplicit false

namespace Verif.Indirect
open Verif

section
variable {L A R B X : Type} [DecidableEq L] [DecidableEq R] [Body B]
variable (tr : ATraits A R) (T : TOps (St L A R B) A X)

/-- `valueless_after_move`, indirect.h:341-343. -/
def valueless (this : L) : M (St L A R B) Bool := do
  let h ← getH this
  pure (h.p == none)

/-- `get_allocator`, indirect.h:345. -/
def getAllocator (this : L) : M (St L A R B) A := do
  let h ← getH this
  pure h.alloc

/-- `operator*` (four overloads, indirect.h:311-329).  The four overloads differ in constness and value
category of the returned reference only; the model returns the address.  `assert(!valueless_after_move())`
is modelled as undefined behaviour (as with NDEBUG). -/
def deref (this : L) : M (St L A R B) Addr := do
  let h ← getH this
  match h.p with
  | some p => pure p
  | none => M.undef .valuelessAccess

/-- `operator->` (two overloads, indirect.h:331-339). -/
def arrow (this : L) : M (St L A R B) Addr := do
  let h ← getH this
  match h.p with
  | some p => pure p
  | none => M.undef .valuelessAccess

/-- `construct_from`, indirect.h:443-454.  `k` is the constructor call of `T` on the allocated storage,
through `construct` of the allocator (indirect.h:447). -/
def constructFrom (a : A) (k : A → Addr → M (St L A R B) Unit) : M (St L A R B) Addr := do
  let mem ← allocate (tr.res a)
  M.onThrow (k a mem) (deallocate (tr.res a) mem)
  pure mem

/-- `destroy_with`, indirect.h:456-459. -/
def destroyWith (a : A) (p : Addr) : M (St L A R B) Unit := do
  T.dtor a p
  deallocate (tr.res a) p

/-- `reset`, indirect.h:437-441. -/
def reset (this : L) : M (St L A R B) Unit := M.noexceptIf true do
  let h ← getH this
  match h.p with
  | none => pure ()
  | some p => do
    destroyWith tr T h.alloc p
    setP this none

/-- `indirect()`, indirect.h:96-101. -/
def ctorDefault : M (St L A R B) (Handle A) := do
  let p ← constructFrom tr tr.dflt (fun a m => T.make a m .none)
  pure ⟨some p, tr.dflt⟩

/-- `indirect(U&&)`, indirect.h:103-110. -/
def ctorFrom (u : Fwd X) : M (St L A R B) (Handle A) := do
  let p ← constructFrom tr tr.dflt (fun a m => T.makeFwd a m u)
  pure ⟨some p, tr.dflt⟩

/-- `indirect(in_place_t, Us&&...)`, indirect.h:112-118. -/
def ctorInPlace (us : List X) : M (St L A R B) (Handle A) := do
  let p ← constructFrom tr tr.dflt (fun a m => T.make a m (.pack us))
  pure ⟨some p, tr.dflt⟩

/-- `indirect(in_place_t, initializer_list<U>, Us&&...)`, indirect.h:120-127. -/
def ctorIlist (l us : List X) : M (St L A R B) (Handle A) := do
  let p ← constructFrom tr tr.dflt (fun a m => T.make a m (.ilist l us))
  pure ⟨some p, tr.dflt⟩

/-- `indirect(allocator_arg_t, const A&)`, indirect.h:145-148. -/
def ctorDefaultA (a : A) : M (St L A R B) (Handle A) := do
  let p ← constructFrom tr a (fun a m => T.make a m .none)
  pure ⟨some p, a⟩

/-- `indirect(allocator_arg_t, const A&, U&&)`, indirect.h:150-157. -/
def ctorFromA (a : A) (u : Fwd X) : M (St L A R B) (Handle A) := do
  let p ← constructFrom tr a (fun a m => T.makeFwd a m u)
  pure ⟨some p, a⟩

/-- `indirect(allocator_arg_t, const A&, in_place_t, U&&)`, indirect.h:159-166. -/
def ctorInPlaceOneA (a : A) (u : Fwd X) : M (St L A R B) (Handle A) := do
  let p ← constructFrom tr a (fun a m => T.makeFwd a m u)
  pure ⟨some p, a⟩

/-- `indirect(allocator_arg_t, const A&, in_place_t, Us&&...)`, indirect.h:168-174. -/
def ctorInPlaceA (a : A) (us : List X) : M (St L A R B) (Handle A) := do
  let p ← constructFrom tr a (fun a m => T.make a m (.pack us))
  pure ⟨some p, a⟩

/-- `indirect(allocator_arg_t, const A&, in_place_t, initializer_list<U>, Us&&...)`,
indirect.h:176-183. -/
def ctorIlistA (a : A) (l us : List X) : M (St L A R B) (Handle A) := do
  let p ← constructFrom tr a (fun a m => T.make a m (.ilist l us))
  pure ⟨some p, a⟩

/-- `indirect(allocator_arg_t, const A&, const indirect&)`, indirect.h:185-195. -/
def ctorCopyA (a : A) (other : L) : M (St L A R B) (Handle A) := do
  if ← valueless other then
    pure ⟨none, a⟩
  else
    let q ← deref other
    let p ← constructFrom tr a (fun a m => T.copyCtor a m q)
    pure ⟨some p, a⟩

/-- `indirect(const indirect&)`, indirect.h:129-135. -/
def ctorCopy (other : L) : M (St L A R B) (Handle A) := do
  let o ← getH other
  ctorCopyA tr T (tr.socc o.alloc) other

/-- `indirect(allocator_arg_t, const A&, indirect&&)`, indirect.h:197-216.  The new object's `p_` starts
as null, so `std::swap(p_, other.p_)` returns the old `other.p_` and nulls it. -/
def ctorMoveA (a : A) (other : L) : M (St L A R B) (Handle A) := M.noexceptIf tr.alwaysEqual do
  let o ← getH other
  if tr.alwaysEqual then
    setP other none
    pure ⟨o.p, a⟩
  else if tr.eq a o.alloc then
    setP other none
    pure ⟨o.p, a⟩
  else if !(← valueless other) then
    let q ← deref other
    let p ← constructFrom tr a (fun a m => T.moveCtor a m q)
    pure ⟨some p, a⟩
  else
    pure ⟨none, a⟩

/-- `indirect(indirect&&)`, indirect.h:137-139. -/
def ctorMove (other : L) : M (St L A R B) (Handle A) := M.noexceptIf tr.alwaysEqual do
  let o ← getH other
  ctorMoveA tr T o.alloc other

/-- `~indirect()`, indirect.h:222.  Destructors are noexcept. -/
def dtor (this : L) : M (St L A R B) Unit := M.noexceptIf true do
  reset tr T this
  endLife this

/-- `operator=(const indirect&)`, indirect.h:228-258.  Returns `*this`. -/
def assignCopy (this other : L) : M (St L A R B) L := do
  if this = other then pure this
  else
    let updateAlloc := tr.pocca
    if ← valueless other then
      reset tr T this
    else
      let t ← getH this
      let o ← getH other
      if T.assignable && !(t.p == none) && tr.eq t.alloc o.alloc then
        let d ← deref this
        let q ← deref other
        T.copyAssign d q
      else
        let q ← deref other
        let tmp ← constructFrom tr (if updateAlloc then o.alloc else t.alloc) (fun a m => T.copyCtor a m q)
        reset tr T this
        setP this (some tmp)
    if updateAlloc then
      let o ← getH other
      setAlloc this o.alloc
    pure this

/-- `operator=(indirect&&)`, indirect.h:260-292.  `std::swap(p_, other.p_)` is two pointer writes. -/
def assignMove (this other : L) : M (St L A R B) L :=
  M.noexceptIf (tr.pocma || tr.alwaysEqual) do
    if this = other then pure this
    else
      let updateAlloc := tr.pocma
      if ← valueless other then
        reset tr T this
      else
        let t ← getH this
        let o ← getH other
        if tr.eq t.alloc o.alloc then
          setP this o.p
          setP other t.p
          reset tr T other
        else
          let q ← deref other
          let tmp ← constructFrom tr (if updateAlloc then o.alloc else t.alloc) (fun a m => T.moveCtor a m q)
          reset tr T this
          setP this (some tmp)
      if updateAlloc then
        let o ← getH other
        setAlloc this o.alloc
      pure this

/-- `operator=(U&&)`, indirect.h:294-305. -/
def assignFrom (this : L) (u : Fwd X) : M (St L A R B) L := do
  if ← valueless this then
    let t ← getH this
    let p ← constructFrom tr t.alloc (fun a m => T.makeFwd a m u)
    setP this (some p)
  else
    let d ← deref this
    T.assignFwd d u
  pure this

/-- Member `swap`, indirect.h:351-366. -/
def swap (this other : L) : M (St L A R B) Unit := M.noexceptIf (tr.pocs || tr.alwaysEqual) do
  let t ← getH this
  let o ← getH other
  if tr.pocs then
    setAlloc this o.alloc
    setAlloc other t.alloc
    setP this o.p
    setP other t.p
  else if tr.eq t.alloc o.alloc then
    setP this o.p
    setP other t.p
  else
    M.undef .unreachable

/-- Friend `swap`, indirect.h:368-371. -/
def friendSwap (lhs rhs : L) : M (St L A R B) Unit := M.noexceptIf (tr.pocs || tr.alwaysEqual) do
  swap tr lhs rhs

end
end Verif.Indirect
