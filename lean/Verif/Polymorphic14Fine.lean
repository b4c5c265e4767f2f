import Verif.PolymorphicFine
import Verif.Polymorphic14

/-!
# polymorphic_cxx14.h as programs of accesses

The functions of `Verif/Polymorphic14.lean` once more, as programs (`Prog`) instead of transitions of the machine.  The text
is the same, in another monad; `Proofs/Fine14.lean` shows that running these programs without interruption is the same.
-/

set_option autoImplicit false

namespace Verif.Fine.Polymorphic14
open Verif Verif.Fine

section
variable {L A R Ty V X : Type} [DecidableEq L] [DecidableEq Ty]

variable (tr : ATraits A R) (P : FPOps L A R (PBody Ty V) Ty X)

/-- `direct_control_block<U>(const A&, Ts&&...)` at `mem`, polymorphic_cxx14.h:131-137.  `k` is the constructor call of
`U`. The call goes through `construct` of the rebound allocator (polymorphic_cxx14.h:134-136).
Simplification: the rebound allocator passes to `U` what `a` would. -/
def cbCtor (ty : Ty) (a : A) (mem : Addr) (k : A → Addr → Prog L A R (PBody Ty V) Unit) : Prog L A R (PBody Ty V) Unit := do
  beginCB ty mem
  Prog.onThrow (k a mem) (abortCB mem)
  setCBp mem mem

/-- `direct_control_block<U>::clone`, polymorphic_cxx14.h:139-149; `q` is `this`.
Simplification (also below): the rebound `cb_alloc` has the memory resource of `alloc`. -/
def clone (ty : Ty) (q : Addr) (a : A) : Prog L A R (PBody Ty V) Addr := do
  let mem ← allocate (tr.res a)
  Prog.onThrow (P.block a mem (cbCtor ty a mem (fun a m => P.copyCtor ty a m q))) (deallocate (tr.res a) mem)
  pure mem

/-- `direct_control_block<U>::move`, polymorphic_cxx14.h:151-162. -/
def moveCB (ty : Ty) (q : Addr) (a : A) : Prog L A R (PBody Ty V) Addr := do
  let mem ← allocate (tr.res a)
  Prog.onThrow (P.block a mem (cbCtor ty a mem (fun a m => P.moveCtor ty a m q))) (deallocate (tr.res a) mem)
  pure mem

/-- `direct_control_block<U>::destroy`, polymorphic_cxx14.h:164-168.  (The destructor of the control block is not
called.) -/
def destroyCB (ty : Ty) (q : Addr) (a : A) : Prog L A R (PBody Ty V) Unit := do
  P.dtor ty a q
  deallocate (tr.res a) q

/-- The virtual call `cb->clone(alloc)`, polymorphic_cxx14.h:113. -/
def vclone (q : Addr) (a : A) : Prog L A R (PBody Ty V) Addr := do
  let c ← readCB q
  clone tr P c.ty q a

/-- The virtual call `cb->move(alloc)`, polymorphic_cxx14.h:114. -/
def vmove (q : Addr) (a : A) : Prog L A R (PBody Ty V) Addr := do
  let c ← readCB q
  moveCB tr P c.ty q a

/-- The virtual call `cb->destroy(alloc)`, polymorphic_cxx14.h:112. -/
def vdestroy (q : Addr) (a : A) : Prog L A R (PBody Ty V) Unit := do
  let c ← readCB q
  destroyCB tr P c.ty q a

/-- `create_control_block<U>`, polymorphic_cxx14.h:176-191. -/
def createControlBlock (ty : Ty) (a : A) (k : A → Addr → Prog L A R (PBody Ty V) Unit) :
    Prog L A R (PBody Ty V) Addr := do
  let mem ← allocate (tr.res a)
  Prog.onThrow (P.block a mem (cbCtor ty a mem k)) (deallocate (tr.res a) mem)
  pure mem

/-- `valueless_after_move`, polymorphic_cxx14.h:437-439. -/
def valueless (this : L) : Prog L A R (PBody Ty V) Bool := do
  let h ← getH this
  pure (h.p == none)

/-- `get_allocator`, polymorphic_cxx14.h:441. -/
def getAllocator (this : L) : Prog L A R (PBody Ty V) A := do
  let h ← getH this
  pure h.alloc

/-- Read `cb_` where it is dereferenced without a check. -/
def derefCB (this : L) : Prog L A R (PBody Ty V) Addr := do
  let h ← getH this
  match h.p with
  | some q => pure q
  | none => Prog.undef .valuelessAccess

/-- `operator*` (two overloads, polymorphic_cxx14.h:427-435): the address `cb_->p_`.  An uninitialised `p_` is undefined. -/
def deref (this : L) : Prog L A R (PBody Ty V) Addr := do
  let q ← derefCB this
  let c ← readCB q
  match c.p with
  | some r => pure r
  | none => Prog.undef .deadObject

/-- `operator->` (two overloads, polymorphic_cxx14.h:417-425). -/
def arrow (this : L) : Prog L A R (PBody Ty V) Addr := do
  let q ← derefCB this
  let c ← readCB q
  match c.p with
  | some r => pure r
  | none => Prog.undef .deadObject

/-- `reset`, polymorphic_cxx14.h:466-471. -/
def reset (this : L) : Prog L A R (PBody Ty V) Unit := Prog.noexceptIf true do
  let h ← getH this
  match h.p with
  | none => pure ()
  | some q => do
    vdestroy tr P q h.alloc
    setP this none

/-- `polymorphic(allocator_arg_t, const A&)`, polymorphic_cxx14.h:199-204. -/
def ctorDefaultA (a : A) : Prog L A R (PBody Ty V) (Handle A) := do
  let q ← createControlBlock tr P P.base a (fun a m => P.make P.base a m .none)
  pure ⟨some q, a⟩

/-- `polymorphic()`, polymorphic_cxx14.h:206-214. -/
def ctorDefault : Prog L A R (PBody Ty V) (Handle A) := ctorDefaultA tr P tr.dflt

/-- `polymorphic(allocator_arg_t, const A&, U&&)`, polymorphic_cxx14.h:273-293; `ty` is `remove_cvref_t<U>`. -/
def ctorFromA (a : A) (ty : Ty) (u : Fwd X) : Prog L A R (PBody Ty V) (Handle A) := do
  let q ← createControlBlock tr P ty a (fun a m => P.makeFwd ty a m u)
  pure ⟨some q, a⟩

/-- `polymorphic(U&&)`, polymorphic_cxx14.h:295-315. -/
def ctorFrom (ty : Ty) (u : Fwd X) : Prog L A R (PBody Ty V) (Handle A) := ctorFromA tr P tr.dflt ty u

/-- `polymorphic(allocator_arg_t, const A&, in_place_type_t<U>, Ts&&...)`, polymorphic_cxx14.h:216-227. -/
def ctorInPlaceA (a : A) (ty : Ty) (us : List X) : Prog L A R (PBody Ty V) (Handle A) := do
  let q ← createControlBlock tr P ty a (fun a m => P.make ty a m (.pack us))
  pure ⟨some q, a⟩

/-- `polymorphic(in_place_type_t<U>, Ts&&...)`, polymorphic_cxx14.h:259-271. -/
def ctorInPlace (ty : Ty) (us : List X) : Prog L A R (PBody Ty V) (Handle A) := ctorInPlaceA tr P tr.dflt ty us

/-- `polymorphic(allocator_arg_t, const A&, in_place_type_t<U>, initializer_list<I>, Ts&&...)`,
polymorphic_cxx14.h:229-241.  Line 240 creates a control block for `T`, not for `U`; `ty` (that is, `U`) is not used.
(If `T` has no such constructor the call does not compile; in that case this definition models nothing.) -/
def ctorIlistA (a : A) (_ty : Ty) (l us : List X) : Prog L A R (PBody Ty V) (Handle A) := do
  let q ← createControlBlock tr P P.base a (fun a m => P.make P.base a m (.ilist l us))
  pure ⟨some q, a⟩

/-- `polymorphic(in_place_type_t<U>, initializer_list<I>, Ts&&...)`, polymorphic_cxx14.h:243-257. -/
def ctorIlist (ty : Ty) (l us : List X) : Prog L A R (PBody Ty V) (Handle A) := ctorIlistA tr P tr.dflt ty l us

/-- `polymorphic(allocator_arg_t, const A&, const polymorphic&)`, polymorphic_cxx14.h:317-324. -/
def ctorCopyA (a : A) (other : L) : Prog L A R (PBody Ty V) (Handle A) := do
  if !(← valueless other) then
    let q ← derefCB other
    let p ← vclone tr P q a
    pure ⟨some p, a⟩
  else
    pure ⟨none, a⟩

/-- `polymorphic(const polymorphic&)`, polymorphic_cxx14.h:326-330. -/
def ctorCopy (other : L) : Prog L A R (PBody Ty V) (Handle A) := do
  let o ← getH other
  ctorCopyA tr P (tr.socc o.alloc) other

/-- `polymorphic(allocator_arg_t, const A&, polymorphic&&)`, polymorphic_cxx14.h:332-351.  Line 336 asks for
`propagate_on_container_copy_assignment` where polymorphic.h asks for `is_always_equal`. -/
def ctorMoveA (a : A) (other : L) : Prog L A R (PBody Ty V) (Handle A) := Prog.noexceptIf tr.alwaysEqual do
  let o ← getH other
  if tr.pocca then
    setP other none
    pure ⟨o.p, a⟩
  else if tr.eq a o.alloc then
    setP other none
    pure ⟨o.p, a⟩
  else if !(← valueless other) then
    let q ← derefCB other
    let p ← vmove tr P q a
    pure ⟨some p, a⟩
  else
    pure ⟨none, a⟩

/-- `polymorphic(polymorphic&&)`, polymorphic_cxx14.h:353-355: `noexcept` without a condition. -/
def ctorMove (other : L) : Prog L A R (PBody Ty V) (Handle A) := Prog.noexceptIf true do
  let o ← getH other
  ctorMoveA tr P o.alloc other

/-- `~polymorphic()`, polymorphic_cxx14.h:357. -/
def dtor (this : L) : Prog L A R (PBody Ty V) Unit := Prog.noexceptIf true do
  reset tr P this
  endLife this

/-- `operator=(const polymorphic&)`, polymorphic_cxx14.h:359-382. -/
def assignCopy (this other : L) : Prog L A R (PBody Ty V) L := do
  if this = other then pure this
  else
    let updateAlloc := tr.pocca
    if ← valueless other then
      reset tr P this
    else
      let q ← derefCB other
      let t ← getH this
      let o ← getH other
      let tmp ← vclone tr P q (if updateAlloc then o.alloc else t.alloc)
      reset tr P this
      setP this (some tmp)
    if updateAlloc then
      let o ← getH other
      setAlloc this o.alloc
    pure this

/-- `operator=(polymorphic&&)`, polymorphic_cxx14.h:384-415. -/
def assignMove (this other : L) : Prog L A R (PBody Ty V) L :=
  Prog.noexceptIf (tr.pocma || tr.alwaysEqual) do
    if this = other then pure this
    else
      let updateAlloc := tr.pocma
      if ← valueless other then
        reset tr P this
      else
        let t ← getH this
        let o ← getH other
        if tr.eq t.alloc o.alloc then
          setP this o.p
          setP other t.p
          reset tr P other
        else
          let q ← derefCB other
          let tmp ← vmove tr P q (if updateAlloc then o.alloc else t.alloc)
          reset tr P this
          setP this (some tmp)
      if updateAlloc then
        let o ← getH other
        setAlloc this o.alloc
      pure this

/-- Member `swap`, polymorphic_cxx14.h:443-458. -/
def swap (this other : L) : Prog L A R (PBody Ty V) Unit := Prog.noexceptIf (tr.pocs || tr.alwaysEqual) do
  let t ← getH this
  let o ← getH other
  if tr.pocs then
    setAlloc this o.alloc
    setAlloc other t.alloc
    setP this o.p
    setP other t.p
  else if tr.eq t.alloc o.alloc then
    setP this o.p
    setP other t.p
  else
    Prog.undef .unreachable

/-- Friend `swap`, polymorphic_cxx14.h:460-463. -/
def friendSwap (lhs rhs : L) : Prog L A R (PBody Ty V) Unit := Prog.noexceptIf (tr.pocs || tr.alwaysEqual) do
  swap tr lhs rhs

/-- Client code evaluates the argument expression. -/
def evalSrc : Src L X → Prog L A R (PBody Ty V) (Fwd X)
  | .arg x => pure (.arg x)
  | .lval y => do
    let q ← deref y
    pure (.lval q)
  | .rval y => do
    let q ← deref y
    pure (.rval q)

/-- The value constructors, without or with allocator argument; as `Polymorphic.construct`. -/
def construct : Option A → PCtor L Ty X → Prog L A R (PBody Ty V) (Handle A)
  | none, .default => ctorDefault tr P
  | none, .from ty u => do
    let u ← evalSrc u
    ctorFrom tr P ty u
  | none, .inPlace ty us => ctorInPlace tr P ty us
  | none, .ilist ty l us => ctorIlist tr P ty l us
  | some a, .default => ctorDefaultA tr P a
  | some a, .from ty u => do
    let u ← evalSrc u
    ctorFromA tr P a ty u
  | some a, .inPlace ty us => ctorInPlaceA tr P a ty us
  | some a, .ilist ty l us => ctorIlistA tr P a ty l us

/-- One call; as `Polymorphic.step`. -/
def step : POp L A Ty V X → Prog L A R (PBody Ty V) (Out L A (Ty × V))
  | .make x a c => do
    let h ← construct tr P a c
    emplace x h
    pure .unit
  | .copy x y => do
    let h ← ctorCopy tr P y
    emplace x h
    pure .unit
  | .copyA x a y => do
    let h ← ctorCopyA tr P a y
    emplace x h
    pure .unit
  | .move x y => do
    let h ← ctorMove tr P y
    emplace x h
    pure .unit
  | .moveA x a y => do
    let h ← ctorMoveA tr P a y
    emplace x h
    pure .unit
  | .destroy x => do
    dtor tr P x
    pure .unit
  | .assignCopy x y => do
    let r ← assignCopy tr P x y
    pure (.self r)
  | .assignMove x y => do
    let r ← assignMove tr P x y
    pure (.self r)
  | .deref x => do
    let p ← deref x
    let v ← readAny p
    pure (.value v)
  | .arrow x => do
    let p ← arrow x
    let v ← readAny p
    pure (.value v)
  | .modify x f => do
    let p ← deref x
    let v ← readAny p
    writeU p (f v.1 v.2)
    pure .unit
  | .valueless x => do
    let b ← valueless x
    pure (.bool b)
  | .getAllocator x => do
    let a ← getAllocator x
    pure (.alloc a)
  | .swap x y => do
    swap tr x y
    pure .unit
  | .friendSwap x y => do
    friendSwap tr x y
    pure .unit

end
end Verif.Fine.Polymorphic14
