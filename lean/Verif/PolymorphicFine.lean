import Verif.Fine
import Verif.PolymorphicOps

/-!
# polymorphic.h as programs of accesses

The functions of `Verif/Polymorphic.lean` and `Verif/PolymorphicOps.lean` once more, as programs (`Prog`).  The text is the
same, in another monad; `Proofs/Fine.lean` shows that running these programs without interruption is the same.
-/

set_option autoImplicit false

namespace Verif.Fine

/-- What the headers do with objects of a type `U`: computations on the addresses of their control blocks. -/
structure FPOps (L A R B Ty X : Type) where
  base : Ty
  make : Ty → A → (dst : Addr) → TArgs X → Prog L A R B Unit
  copyCtor : Ty → A → (dst src : Addr) → Prog L A R B Unit
  moveCtor : Ty → A → (dst src : Addr) → Prog L A R B Unit
  dtor : Ty → A → Addr → Prog L A R B Unit
  block : A → Addr → Prog L A R B Unit → Prog L A R B Unit

/-- `U(std::forward<Arg>(u))` at `dst`. -/
def FPOps.makeFwd {L A R B Ty X : Type} (P : FPOps L A R B Ty X) (ty : Ty) (a : A) (dst : Addr) : Fwd X → Prog L A R B Unit
  | .arg x => P.make ty a dst (.pack [x])
  | .lval q => P.copyCtor ty a dst q
  | .rval q => P.moveCtor ty a dst q

section
variable {L A R Ty V X : Type} [DecidableEq L] [DecidableEq Ty]

/-- Read the control block at `q`: what a virtual call or an access to `p_` does first. -/
def readCB (q : Addr) : Prog L A R (PBody Ty V) (CB Ty V) := do
  match ← readBody q with
  | some c => pure c
  | none => Prog.undef .deadObject

/-- Read the `U` in the control block at `q`, whatever `U` is. -/
def readAny (q : Addr) : Prog L A R (PBody Ty V) (Ty × V) := do
  let c ← readCB q
  match c.u with
  | some v => pure (c.ty, v)
  | none => Prog.undef .deadObject

/-- Read the object in the control block at `q`, which has to be a `ty`. -/
def readU (ty : Ty) (q : Addr) : Prog L A R (PBody Ty V) V := do
  let c ← readCB q
  match c.u with
  | some v => if c.ty = ty then pure v else Prog.undef .deadObject
  | none => Prog.undef .deadObject

/-- Change the value of the live object in the control block at `q`. -/
def writeU (q : Addr) (v : V) : Prog L A R (PBody Ty V) Unit := do
  let c ← readCB q
  match c.u with
  | some _ => writeBody q (some { c with u := some v })
  | none => Prog.undef .deadObject

/-- The lifetime of a `ty` with value `v` begins in the control block at `q`, which has to be one for `ty`. -/
def beginU (ty : Ty) (q : Addr) (v : V) (how : How) : Prog L A R (PBody Ty V) Unit :=
  .act (.begin q (fun
    | some ⟨t, p, none⟩ => if t = ty then some (some ⟨t, p, some v⟩) else none
    | _ => none) [.construct q how]) .ret

/-- The lifetime of the `ty` in the control block at `q` ends. -/
def endU (ty : Ty) (q : Addr) : Prog L A R (PBody Ty V) Unit := do
  let _ ← readU ty q
  let c ← readCB q
  writeBody q (some { c with u := none })
  emit (.destroy q)

/-- The outcome of a constructor of `ty`. -/
def finishU (ty : Ty) (q : Addr) (how : How) : Except Exn V → Prog L A R (PBody Ty V) Unit
  | .ok v => beginU ty q v how
  | .error e => Prog.throwE e

/-- The operations of owned types without `polymorphic` or `indirect` members. -/
def plainP (P : PSpec Ty V X) : FPOps L A R (PBody Ty V) Ty X where
  base := P.base
  make ty _ dst xs := do
    let c ← choose
    finishU ty dst .args (P.make ty xs c)
  copyCtor ty _ dst src := do
    let v ← readU ty src
    let c ← choose
    finishU ty dst (.copyOf src) (P.copy ty v c)
  moveCtor ty _ dst src := do
    let v ← readU ty src
    let c ← choose
    writeU src (P.move ty v c).2
    finishU ty dst (.moveOf src) (P.move ty v c).1
  dtor ty _ q := endU ty q
  block _ _ m := m

/-- The lifetime of a control block for `ty` begins in raw storage: vtable pointer set, `p_` and `u_` not initialised.
(What the language does at the start of the constructor, polymorphic.h:77-78.) -/
def beginCB (ty : Ty) (q : Addr) : Prog L A R (PBody Ty V) Unit :=
  .act (.begin q (fun b => if b.isNone then some (some ⟨ty, none, none⟩) else none) []) .ret

/-- An exception leaves the constructor of the control block at `q`: there is only storage left. -/
def abortCB (q : Addr) : Prog L A R (PBody Ty V) Unit := do
  let c ← readCB q
  match c.u with
  | some _ => Prog.undef .freeLive
  | none => writeBody q none

/-- Write `p_`. -/
def setCBp (q r : Addr) : Prog L A R (PBody Ty V) Unit := do
  let c ← readCB q
  writeBody q (some { c with p := some r })

namespace Polymorphic

variable (tr : ATraits A R) (P : FPOps L A R (PBody Ty V) Ty X)

/-- `direct_control_block<U>(const A&, Ts&&...)` at `mem`, polymorphic.h:77-83.  `k` is the constructor call of `U`.
The call goes through `construct` of the rebound allocator (polymorphic.h:79-81).
Simplification: the rebound allocator passes to `U` what `a` would. -/
def cbCtor (ty : Ty) (a : A) (mem : Addr) (k : A → Addr → Prog L A R (PBody Ty V) Unit) : Prog L A R (PBody Ty V) Unit := do
  beginCB ty mem
  Prog.onThrow (k a mem) (abortCB mem)
  setCBp mem mem

/-- `direct_control_block<U>::clone`, polymorphic.h:85-95; `q` is `this`.
Simplification (also below): the rebound `cb_alloc` has the memory resource of `alloc`. -/
def clone (ty : Ty) (q : Addr) (a : A) : Prog L A R (PBody Ty V) Addr := do
  let mem ← allocate (tr.res a)
  Prog.onThrow (P.block a mem (cbCtor ty a mem (fun a m => P.copyCtor ty a m q))) (deallocate (tr.res a) mem)
  pure mem

/-- `direct_control_block<U>::move`, polymorphic.h:97-108. -/
def moveCB (ty : Ty) (q : Addr) (a : A) : Prog L A R (PBody Ty V) Addr := do
  let mem ← allocate (tr.res a)
  Prog.onThrow (P.block a mem (cbCtor ty a mem (fun a m => P.moveCtor ty a m q))) (deallocate (tr.res a) mem)
  pure mem

/-- `direct_control_block<U>::destroy`, polymorphic.h:110-114.  (The destructor of the control block is not called.) -/
def destroyCB (ty : Ty) (q : Addr) (a : A) : Prog L A R (PBody Ty V) Unit := do
  P.dtor ty a q
  deallocate (tr.res a) q

/-- The virtual call `cb->clone(alloc)`, polymorphic.h:58. -/
def vclone (q : Addr) (a : A) : Prog L A R (PBody Ty V) Addr := do
  let c ← readCB q
  clone tr P c.ty q a

/-- The virtual call `cb->move(alloc)`, polymorphic.h:59. -/
def vmove (q : Addr) (a : A) : Prog L A R (PBody Ty V) Addr := do
  let c ← readCB q
  moveCB tr P c.ty q a

/-- The virtual call `cb->destroy(alloc)`, polymorphic.h:57. -/
def vdestroy (q : Addr) (a : A) : Prog L A R (PBody Ty V) Unit := do
  let c ← readCB q
  destroyCB tr P c.ty q a

/-- `create_control_block<U>`, polymorphic.h:128-144. -/
def createControlBlock (ty : Ty) (a : A) (k : A → Addr → Prog L A R (PBody Ty V) Unit) :
    Prog L A R (PBody Ty V) Addr := do
  let mem ← allocate (tr.res a)
  Prog.onThrow (P.block a mem (cbCtor ty a mem k)) (deallocate (tr.res a) mem)
  pure mem

/-- `valueless_after_move`, polymorphic.h:363-365. -/
def valueless (this : L) : Prog L A R (PBody Ty V) Bool := do
  let h ← getH this
  pure (h.p == none)

/-- `get_allocator`, polymorphic.h:367. -/
def getAllocator (this : L) : Prog L A R (PBody Ty V) A := do
  let h ← getH this
  pure h.alloc

/-- Read `cb_` where it is dereferenced without a check. -/
def derefCB (this : L) : Prog L A R (PBody Ty V) Addr := do
  let h ← getH this
  match h.p with
  | some q => pure q
  | none => Prog.undef .valuelessAccess

/-- `operator*` (two overloads, polymorphic.h:353-361): the address `cb_->p_`.  An uninitialised `p_` is undefined. -/
def deref (this : L) : Prog L A R (PBody Ty V) Addr := do
  let q ← derefCB this
  let c ← readCB q
  match c.p with
  | some r => pure r
  | none => Prog.undef .deadObject

/-- `operator->` (two overloads, polymorphic.h:343-351). -/
def arrow (this : L) : Prog L A R (PBody Ty V) Addr := do
  let q ← derefCB this
  let c ← readCB q
  match c.p with
  | some r => pure r
  | none => Prog.undef .deadObject

/-- `reset`, polymorphic.h:396-401. -/
def reset (this : L) : Prog L A R (PBody Ty V) Unit := Prog.noexceptIf true do
  let h ← getH this
  match h.p with
  | none => pure ()
  | some q => do
    vdestroy tr P q h.alloc
    setP this none

/-- `polymorphic(allocator_arg_t, const A&)`, polymorphic.h:203-208. -/
def ctorDefaultA (a : A) : Prog L A R (PBody Ty V) (Handle A) := do
  let q ← createControlBlock tr P P.base a (fun a m => P.make P.base a m .none)
  pure ⟨some q, a⟩

/-- `polymorphic()`, polymorphic.h:156-160. -/
def ctorDefault : Prog L A R (PBody Ty V) (Handle A) := ctorDefaultA tr P tr.dflt

/-- `polymorphic(allocator_arg_t, const A&, U&&)`, polymorphic.h:210-217; `ty` is `remove_cvref_t<U>`. -/
def ctorFromA (a : A) (ty : Ty) (u : Fwd X) : Prog L A R (PBody Ty V) (Handle A) := do
  let q ← createControlBlock tr P ty a (fun a m => P.makeFwd ty a m u)
  pure ⟨some q, a⟩

/-- `polymorphic(U&&)`, polymorphic.h:162-168. -/
def ctorFrom (ty : Ty) (u : Fwd X) : Prog L A R (PBody Ty V) (Handle A) := ctorFromA tr P tr.dflt ty u

/-- `polymorphic(allocator_arg_t, const A&, in_place_type_t<U>, Ts&&...)`, polymorphic.h:219-227. -/
def ctorInPlaceA (a : A) (ty : Ty) (us : List X) : Prog L A R (PBody Ty V) (Handle A) := do
  let q ← createControlBlock tr P ty a (fun a m => P.make ty a m (.pack us))
  pure ⟨some q, a⟩

/-- `polymorphic(in_place_type_t<U>, Ts&&...)`, polymorphic.h:170-177. -/
def ctorInPlace (ty : Ty) (us : List X) : Prog L A R (PBody Ty V) (Handle A) := ctorInPlaceA tr P tr.dflt ty us

/-- `polymorphic(allocator_arg_t, const A&, in_place_type_t<U>, initializer_list<I>, Ts&&...)`,
polymorphic.h:229-238. -/
def ctorIlistA (a : A) (ty : Ty) (l us : List X) : Prog L A R (PBody Ty V) (Handle A) := do
  let q ← createControlBlock tr P ty a (fun a m => P.make ty a m (.ilist l us))
  pure ⟨some q, a⟩

/-- `polymorphic(in_place_type_t<U>, initializer_list<I>, Ts&&...)`, polymorphic.h:179-187. -/
def ctorIlist (ty : Ty) (l us : List X) : Prog L A R (PBody Ty V) (Handle A) := ctorIlistA tr P tr.dflt ty l us

/-- `polymorphic(allocator_arg_t, const A&, const polymorphic&)`, polymorphic.h:240-248. -/
def ctorCopyA (a : A) (other : L) : Prog L A R (PBody Ty V) (Handle A) := do
  if !(← valueless other) then
    let q ← derefCB other
    let p ← vclone tr P q a
    pure ⟨some p, a⟩
  else
    pure ⟨none, a⟩

/-- `polymorphic(const polymorphic&)`, polymorphic.h:189-193. -/
def ctorCopy (other : L) : Prog L A R (PBody Ty V) (Handle A) := do
  let o ← getH other
  ctorCopyA tr P (tr.socc o.alloc) other

/-- `polymorphic(allocator_arg_t, const A&, polymorphic&&)`, polymorphic.h:250-267. -/
def ctorMoveA (a : A) (other : L) : Prog L A R (PBody Ty V) (Handle A) := Prog.noexceptIf tr.alwaysEqual do
  let o ← getH other
  if tr.alwaysEqual then
    setP other none
    pure ⟨o.p, a⟩
  else if tr.eq a o.alloc then
    setP other none
    pure ⟨o.p, a⟩
  else if !(← valueless other) then
    let q ← derefCB other
    let p ← vmove tr P q a
    pure ⟨some p, a⟩
  else
    pure ⟨none, a⟩

/-- `polymorphic(polymorphic&&)`, polymorphic.h:195-197. -/
def ctorMove (other : L) : Prog L A R (PBody Ty V) (Handle A) := Prog.noexceptIf tr.alwaysEqual do
  let o ← getH other
  ctorMoveA tr P o.alloc other

/-- `~polymorphic()`, polymorphic.h:273. -/
def dtor (this : L) : Prog L A R (PBody Ty V) Unit := Prog.noexceptIf true do
  reset tr P this
  endLife this

/-- `operator=(const polymorphic&)`, polymorphic.h:279-303. -/
def assignCopy (this other : L) : Prog L A R (PBody Ty V) L := do
  if this = other then pure this
  else
    let updateAlloc := tr.pocca
    if ← valueless other then
      reset tr P this
    else
      let q ← derefCB other
      let t ← getH this
      let o ← getH other
      let tmp ← vclone tr P q (if updateAlloc then o.alloc else t.alloc)
      reset tr P this
      setP this (some tmp)
    if updateAlloc then
      let o ← getH other
      setAlloc this o.alloc
    pure this

/-- `operator=(polymorphic&&)`, polymorphic.h:305-337. -/
def assignMove (this other : L) : Prog L A R (PBody Ty V) L :=
  Prog.noexceptIf (tr.pocma || tr.alwaysEqual) do
    if this = other then pure this
    else
      let updateAlloc := tr.pocma
      if ← valueless other then
        reset tr P this
      else
        let t ← getH this
        let o ← getH other
        if tr.eq t.alloc o.alloc then
          setP this o.p
          setP other t.p
          reset tr P other
        else
          let q ← derefCB other
          let tmp ← vmove tr P q (if updateAlloc then o.alloc else t.alloc)
          reset tr P this
          setP this (some tmp)
      if updateAlloc then
        let o ← getH other
        setAlloc this o.alloc
      pure this

/-- Member `swap`, polymorphic.h:373-388. -/
def swap (this other : L) : Prog L A R (PBody Ty V) Unit := Prog.noexceptIf (tr.pocs || tr.alwaysEqual) do
  let t ← getH this
  let o ← getH other
  if tr.pocs then
    setAlloc this o.alloc
    setAlloc other t.alloc
    setP this o.p
    setP other t.p
  else if tr.eq t.alloc o.alloc then
    setP this o.p
    setP other t.p
  else
    Prog.undef .unreachable

/-- Friend `swap`, polymorphic.h:390-393. -/
def friendSwap (lhs rhs : L) : Prog L A R (PBody Ty V) Unit := Prog.noexceptIf (tr.pocs || tr.alwaysEqual) do
  swap tr lhs rhs

end Polymorphic
end

namespace Polymorphic
section
variable {L A R Ty V X : Type} [DecidableEq L] [DecidableEq Ty]

/-- Client code evaluates the argument expression. -/
def evalSrc : Src L X → Prog L A R (PBody Ty V) (Fwd X)
  | .arg x => pure (.arg x)
  | .lval y => do
    let q ← deref y
    pure (.lval q)
  | .rval y => do
    let q ← deref y
    pure (.rval q)

variable (tr : ATraits A R) (P : FPOps L A R (PBody Ty V) Ty X)

/-- The value constructors, without (`none`) or with (`some a`) allocator argument. -/
def construct : Option A → PCtor L Ty X → Prog L A R (PBody Ty V) (Handle A)
  | none, .default => ctorDefault tr P
  | none, .from ty u => do
    let u ← evalSrc u
    ctorFrom tr P ty u
  | none, .inPlace ty us => ctorInPlace tr P ty us
  | none, .ilist ty l us => ctorIlist tr P ty l us
  | some a, .default => ctorDefaultA tr P a
  | some a, .from ty u => do
    let u ← evalSrc u
    ctorFromA tr P a ty u
  | some a, .inPlace ty us => ctorInPlaceA tr P a ty us
  | some a, .ilist ty l us => ctorIlistA tr P a ty l us

/-- One call. -/
def step : POp L A Ty V X → Prog L A R (PBody Ty V) (Out L A (Ty × V))
  | .make x a c => do
    let h ← construct tr P a c
    emplace x h
    pure .unit
  | .copy x y => do
    let h ← ctorCopy tr P y
    emplace x h
    pure .unit
  | .copyA x a y => do
    let h ← ctorCopyA tr P a y
    emplace x h
    pure .unit
  | .move x y => do
    let h ← ctorMove tr P y
    emplace x h
    pure .unit
  | .moveA x a y => do
    let h ← ctorMoveA tr P a y
    emplace x h
    pure .unit
  | .destroy x => do
    dtor tr P x
    pure .unit
  | .assignCopy x y => do
    let r ← assignCopy tr P x y
    pure (.self r)
  | .assignMove x y => do
    let r ← assignMove tr P x y
    pure (.self r)
  | .deref x => do
    let p ← deref x
    let v ← readAny p
    pure (.value v)
  | .arrow x => do
    let p ← arrow x
    let v ← readAny p
    pure (.value v)
  | .modify x f => do
    let p ← deref x
    let v ← readAny p
    writeU p (f v.1 v.2)
    pure .unit
  | .valueless x => do
    let b ← valueless x
    pure (.bool b)
  | .getAllocator x => do
    let a ← getAllocator x
    pure (.alloc a)
  | .swap x y => do
    swap tr x y
    pure .unit
  | .friendSwap x y => do
    friendSwap tr x y
    pure .unit

end
end Polymorphic
end Verif.Fine
