import Verif.Polymorphic14

/-!
# polymorphic.h and polymorphic_cxx14.h with base class subobjects

In `Verif/Polymorphic.lean` the owned `U`, its base class subobject `T` and the control block have one address.  Here they are different places: `u_` is somewhere in the control block, and the
`T` is somewhere in the `U` (not at its beginning if `U` has several base classes), where, if it is a virtual base class, only a living `U` knows.  `p_` points to the `T`
(polymorphic.h:82: the conversion from `U*` to `T*`), and `operator*` and `operator->` give it to clients.  Line numbers refer to /repo/polymorphic.h and /repo/polymorphic_cxx14.h.

The functions of the headers are written again for these control blocks.  Where a function does not look into a control block, its text is the one of `Verif/Polymorphic.lean`
(`Verif/Polymorphic14.lean`).  Functions of `U` are called with the address of the control block whose `u_` they work on, as there: `u_` is a member of type `U`, no conversion is involved.
Simplification: a `U` has exactly one `T` (`std::derived_from` implies that the base class is unambiguous).
-/

set_option autoImplicit false

namespace Verif.Subobject
open Verif

/-- Where things are in control blocks: what the compiler decides.  -/
structure Classes (Ty : Type) where
  /-- the offset of `storage_.u_` in a `direct_control_block<U>`, polymorphic.h:63-70, polymorphic_cxx14.h:117-124 -/
  storage : Ty → Nat
  /-- the offset of the `T` in a `U` -/
  base : Ty → Nat
  /-- is `T` a virtual base class? -/
  virt : Ty → Bool

/-- A pointer: the block, and the offset in it. -/
structure Ptr where
  block : Addr
  off : Nat
  deriving DecidableEq, Repr

/-- A control block, polymorphic.h:52-76, polymorphic_cxx14.h:107-129: as `CB`, with the pointer `p_` to the `T`. -/
structure SCB (Ty V : Type) where
  ty : Ty
  p : Option Ptr
  u : Option V
  deriving DecidableEq, Repr

/-- Contents of a block: raw storage or a control block. -/
abbrev SBody (Ty V : Type) := Option (SCB Ty V)

instance (Ty V : Type) : Body (SBody Ty V) where
  raw := none
  occupied b := (b.bind (·.u)).isSome

section
variable {L A R Ty V X : Type} [DecidableEq L] [DecidableEq R] [DecidableEq Ty]

/-- Read the control block at `q`: what a virtual call or an access to `p_` does first. -/
def readCB (q : Addr) : M (St L A R (SBody Ty V)) (SCB Ty V) := do
  match ← readBody q with
  | some c => pure c
  | none => M.undef .deadObject

/-- Read the `U` in the control block at `q`, whatever `U` is. -/
def readAny (q : Addr) : M (St L A R (SBody Ty V)) (Ty × V) := do
  let c ← readCB q
  match c.u with
  | some v => pure (c.ty, v)
  | none => M.undef .deadObject

/-- Read the object in the control block at `q`, which has to be a `ty`. -/
def readU (ty : Ty) (q : Addr) : M (St L A R (SBody Ty V)) V := do
  let c ← readCB q
  match c.u with
  | some v => if c.ty = ty then pure v else M.undef .deadObject
  | none => M.undef .deadObject

/-- Change the value of the live object in the control block at `q`. -/
def writeU (q : Addr) (v : V) : M (St L A R (SBody Ty V)) Unit := do
  let c ← readCB q
  match c.u with
  | some _ => writeBody q (some { c with u := some v })
  | none => M.undef .deadObject

/-- The lifetime of a `ty` with value `v` begins in the control block at `q`, which has to be one for `ty`. -/
def beginU (ty : Ty) (q : Addr) (v : V) (how : How) : M (St L A R (SBody Ty V)) Unit := fun s =>
  match s.heap q with
  | some ⟨r, some ⟨t, p, none⟩⟩ =>
    if t = ty then
      .ok () { s with heap := upd s.heap q (some ⟨r, some ⟨t, p, some v⟩⟩), trace := s.trace ++ [.construct q how] }
    else .ub .notRaw
  | _ => .ub .notRaw

/-- The lifetime of the `ty` in the control block at `q` ends. -/
def endU (ty : Ty) (q : Addr) : M (St L A R (SBody Ty V)) Unit := do
  let _ ← readU ty q
  let c ← readCB q
  writeBody q (some { c with u := none })
  emit (.destroy q)

/-- The outcome of a constructor of `ty`. -/
def finishU (ty : Ty) (q : Addr) (how : How) : Except Exn V → M (St L A R (SBody Ty V)) Unit
  | .ok v => beginU ty q v how
  | .error e => M.throwE e

/-- The operations of owned types without `polymorphic` or `indirect` members. -/
def plainS (P : PSpec Ty V X) : POps (St L A R (SBody Ty V)) A Ty X where
  base := P.base
  make ty _ dst xs := do
    let c ← choose
    finishU ty dst .args (P.make ty xs c)
  copyCtor ty _ dst src := do
    let v ← readU ty src
    let c ← choose
    finishU ty dst (.copyOf src) (P.copy ty v c)
  moveCtor ty _ dst src := do
    let v ← readU ty src
    let c ← choose
    writeU src (P.move ty v c).2
    finishU ty dst (.moveOf src) (P.move ty v c).1
  dtor ty _ q := endU ty q
  block _ _ m := m

/-- The lifetime of a control block for `ty` begins in raw storage: vtable pointer set, `p_` and `u_` not initialised.
(What the language does at the start of the constructor, polymorphic.h:77-78, polymorphic_cxx14.h:131-132.) -/
def beginCB (ty : Ty) (q : Addr) : M (St L A R (SBody Ty V)) Unit := fun s =>
  match s.heap q with
  | some ⟨r, none⟩ => .ok () { s with heap := upd s.heap q (some ⟨r, some ⟨ty, none, none⟩⟩) }
  | _ => .ub .notRaw

/-- An exception leaves the constructor of the control block at `q`: there is only storage left. -/
def abortCB (q : Addr) : M (St L A R (SBody Ty V)) Unit := do
  let c ← readCB q
  match c.u with
  | some _ => M.undef .freeLive
  | none => writeBody q none

/-- Write `p_`. -/
def setCBp (q : Addr) (r : Ptr) : M (St L A R (SBody Ty V)) Unit := do
  let c ← readCB q
  writeBody q (some { c with p := some r })

variable (K : Classes Ty)

/-- The conversion from `U*` to `T*`, polymorphic.h:82, polymorphic_cxx14.h:137.  If `T` is a virtual base class there has to be a living `U` ([class.cdtor]). -/
def upcast (ty : Ty) (r : Ptr) : M (St L A R (SBody Ty V)) Ptr := do
  if K.virt ty then
    let _ ← readU ty r.block
    pure ⟨r.block, r.off + K.base ty⟩
  else
    pure ⟨r.block, r.off + K.base ty⟩

/-- The control block with the `U` of which the object at `r` is the `T`: client code uses what `operator*` and `operator->` gave it.  A pointer that is not to the `T` of
the `U` in that block points to something else: undefined. -/
def locate (r : Ptr) : M (St L A R (SBody Ty V)) Addr := do
  let c ← readCB r.block
  if r.off = K.storage c.ty + K.base c.ty then pure r.block else M.undef .deadObject

namespace Polymorphic

variable (tr : ATraits A R) (P : POps (St L A R (SBody Ty V)) A Ty X)

/-- `direct_control_block<U>(const A&, Ts&&...)` at `mem`, polymorphic.h:77-83.  `k` is the constructor call of `U`,
through `construct` of the rebound allocator (polymorphic.h:79-81).
Simplification: the rebound allocator passes to `U` what `a` would. -/
def cbCtor (ty : Ty) (a : A) (mem : Addr) (k : A → Addr → M (St L A R (SBody Ty V)) Unit) : M (St L A R (SBody Ty V)) Unit := do
  beginCB ty mem
  M.onThrow (k a mem) (abortCB mem)
  let r ← upcast K ty ⟨mem, K.storage ty⟩
  setCBp mem r

/-- `direct_control_block<U>::clone`, polymorphic.h:85-95; `q` is `this`.
Simplification (also below): the rebound `cb_alloc` has the memory resource of `alloc`. -/
def clone (ty : Ty) (q : Addr) (a : A) : M (St L A R (SBody Ty V)) Addr := do
  let mem ← allocate (tr.res a)
  M.onThrow (P.block a mem (cbCtor K ty a mem (fun a m => P.copyCtor ty a m q))) (deallocate (tr.res a) mem)
  pure mem

/-- `direct_control_block<U>::move`, polymorphic.h:97-108. -/
def moveCB (ty : Ty) (q : Addr) (a : A) : M (St L A R (SBody Ty V)) Addr := do
  let mem ← allocate (tr.res a)
  M.onThrow (P.block a mem (cbCtor K ty a mem (fun a m => P.moveCtor ty a m q))) (deallocate (tr.res a) mem)
  pure mem

/-- `direct_control_block<U>::destroy`, polymorphic.h:110-114.  (The destructor of the control block is not called.) -/
def destroyCB (ty : Ty) (q : Addr) (a : A) : M (St L A R (SBody Ty V)) Unit := do
  P.dtor ty a q
  deallocate (tr.res a) q

/-- The virtual call `cb->clone(alloc)`, polymorphic.h:58. -/
def vclone (q : Addr) (a : A) : M (St L A R (SBody Ty V)) Addr := do
  let c ← readCB q
  clone K tr P c.ty q a

/-- The virtual call `cb->move(alloc)`, polymorphic.h:59. -/
def vmove (q : Addr) (a : A) : M (St L A R (SBody Ty V)) Addr := do
  let c ← readCB q
  moveCB K tr P c.ty q a

/-- The virtual call `cb->destroy(alloc)`, polymorphic.h:57. -/
def vdestroy (q : Addr) (a : A) : M (St L A R (SBody Ty V)) Unit := do
  let c ← readCB q
  destroyCB tr P c.ty q a

/-- `create_control_block<U>`, polymorphic.h:128-144. -/
def createControlBlock (ty : Ty) (a : A) (k : A → Addr → M (St L A R (SBody Ty V)) Unit) :
    M (St L A R (SBody Ty V)) Addr := do
  let mem ← allocate (tr.res a)
  M.onThrow (P.block a mem (cbCtor K ty a mem k)) (deallocate (tr.res a) mem)
  pure mem

/-- `valueless_after_move`, polymorphic.h:363-365. -/
def valueless (this : L) : M (St L A R (SBody Ty V)) Bool := do
  let h ← getH this
  pure (h.p == none)

/-- `get_allocator`, polymorphic.h:367. -/
def getAllocator (this : L) : M (St L A R (SBody Ty V)) A := do
  let h ← getH this
  pure h.alloc

/-- Read `cb_` where it is dereferenced without a check. -/
def derefCB (this : L) : M (St L A R (SBody Ty V)) Addr := do
  let h ← getH this
  match h.p with
  | some q => pure q
  | none => M.undef .valuelessAccess

/-- `operator*` (two overloads, polymorphic.h:353-361): the pointer `cb_->p_`.  An uninitialised `p_` is undefined. -/
def deref (this : L) : M (St L A R (SBody Ty V)) Ptr := do
  let q ← derefCB this
  let c ← readCB q
  match c.p with
  | some r => pure r
  | none => M.undef .deadObject

/-- `operator->` (two overloads, polymorphic.h:343-351). -/
def arrow (this : L) : M (St L A R (SBody Ty V)) Ptr := do
  let q ← derefCB this
  let c ← readCB q
  match c.p with
  | some r => pure r
  | none => M.undef .deadObject

/-- `reset`, polymorphic.h:396-401. -/
def reset (this : L) : M (St L A R (SBody Ty V)) Unit := M.noexceptIf true do
  let h ← getH this
  match h.p with
  | none => pure ()
  | some q => do
    vdestroy tr P q h.alloc
    setP this none

/-- `polymorphic(allocator_arg_t, const A&)`, polymorphic.h:203-208. -/
def ctorDefaultA (a : A) : M (St L A R (SBody Ty V)) (Handle A) := do
  let q ← createControlBlock K tr P P.base a (fun a m => P.make P.base a m .none)
  pure ⟨some q, a⟩

/-- `polymorphic()`, polymorphic.h:156-160. -/
def ctorDefault : M (St L A R (SBody Ty V)) (Handle A) := ctorDefaultA K tr P tr.dflt

/-- `polymorphic(allocator_arg_t, const A&, U&&)`, polymorphic.h:210-217; `ty` is `remove_cvref_t<U>`. -/
def ctorFromA (a : A) (ty : Ty) (u : Fwd X) : M (St L A R (SBody Ty V)) (Handle A) := do
  let q ← createControlBlock K tr P ty a (fun a m => P.makeFwd ty a m u)
  pure ⟨some q, a⟩

/-- `polymorphic(U&&)`, polymorphic.h:162-168. -/
def ctorFrom (ty : Ty) (u : Fwd X) : M (St L A R (SBody Ty V)) (Handle A) := ctorFromA K tr P tr.dflt ty u

/-- `polymorphic(allocator_arg_t, const A&, in_place_type_t<U>, Ts&&...)`, polymorphic.h:219-227. -/
def ctorInPlaceA (a : A) (ty : Ty) (us : List X) : M (St L A R (SBody Ty V)) (Handle A) := do
  let q ← createControlBlock K tr P ty a (fun a m => P.make ty a m (.pack us))
  pure ⟨some q, a⟩

/-- `polymorphic(in_place_type_t<U>, Ts&&...)`, polymorphic.h:170-177. -/
def ctorInPlace (ty : Ty) (us : List X) : M (St L A R (SBody Ty V)) (Handle A) := ctorInPlaceA K tr P tr.dflt ty us

/-- `polymorphic(allocator_arg_t, const A&, in_place_type_t<U>, initializer_list<I>, Ts&&...)`,
polymorphic.h:229-238. -/
def ctorIlistA (a : A) (ty : Ty) (l us : List X) : M (St L A R (SBody Ty V)) (Handle A) := do
  let q ← createControlBlock K tr P ty a (fun a m => P.make ty a m (.ilist l us))
  pure ⟨some q, a⟩

/-- `polymorphic(in_place_type_t<U>, initializer_list<I>, Ts&&...)`, polymorphic.h:179-187. -/
def ctorIlist (ty : Ty) (l us : List X) : M (St L A R (SBody Ty V)) (Handle A) := ctorIlistA K tr P tr.dflt ty l us

/-- `polymorphic(allocator_arg_t, const A&, const polymorphic&)`, polymorphic.h:240-248. -/
def ctorCopyA (a : A) (other : L) : M (St L A R (SBody Ty V)) (Handle A) := do
  if !(← valueless other) then
    let q ← derefCB other
    let p ← vclone K tr P q a
    pure ⟨some p, a⟩
  else
    pure ⟨none, a⟩

/-- `polymorphic(const polymorphic&)`, polymorphic.h:189-193. -/
def ctorCopy (other : L) : M (St L A R (SBody Ty V)) (Handle A) := do
  let o ← getH other
  ctorCopyA K tr P (tr.socc o.alloc) other

/-- `polymorphic(allocator_arg_t, const A&, polymorphic&&)`, polymorphic.h:250-267. -/
def ctorMoveA (a : A) (other : L) : M (St L A R (SBody Ty V)) (Handle A) := M.noexceptIf tr.alwaysEqual do
  let o ← getH other
  if tr.alwaysEqual then
    setP other none
    pure ⟨o.p, a⟩
  else if tr.eq a o.alloc then
    setP other none
    pure ⟨o.p, a⟩
  else if !(← valueless other) then
    let q ← derefCB other
    let p ← vmove K tr P q a
    pure ⟨some p, a⟩
  else
    pure ⟨none, a⟩

/-- `polymorphic(polymorphic&&)`, polymorphic.h:195-197. -/
def ctorMove (other : L) : M (St L A R (SBody Ty V)) (Handle A) := M.noexceptIf tr.alwaysEqual do
  let o ← getH other
  ctorMoveA K tr P o.alloc other

/-- `~polymorphic()`, polymorphic.h:273. -/
def dtor (this : L) : M (St L A R (SBody Ty V)) Unit := M.noexceptIf true do
  reset tr P this
  endLife this

/-- `operator=(const polymorphic&)`, polymorphic.h:279-303. -/
def assignCopy (this other : L) : M (St L A R (SBody Ty V)) L := do
  if this = other then pure this
  else
    let updateAlloc := tr.pocca
    if ← valueless other then
      reset tr P this
    else
      let q ← derefCB other
      let t ← getH this
      let o ← getH other
      let tmp ← vclone K tr P q (if updateAlloc then o.alloc else t.alloc)
      reset tr P this
      setP this (some tmp)
    if updateAlloc then
      let o ← getH other
      setAlloc this o.alloc
    pure this

/-- `operator=(polymorphic&&)`, polymorphic.h:305-337. -/
def assignMove (this other : L) : M (St L A R (SBody Ty V)) L :=
  M.noexceptIf (tr.pocma || tr.alwaysEqual) do
    if this = other then pure this
    else
      let updateAlloc := tr.pocma
      if ← valueless other then
        reset tr P this
      else
        let t ← getH this
        let o ← getH other
        if tr.eq t.alloc o.alloc then
          setP this o.p
          setP other t.p
          reset tr P other
        else
          let q ← derefCB other
          let tmp ← vmove K tr P q (if updateAlloc then o.alloc else t.alloc)
          reset tr P this
          setP this (some tmp)
      if updateAlloc then
        let o ← getH other
        setAlloc this o.alloc
      pure this

/-- Member `swap`, polymorphic.h:373-388. -/
def swap (this other : L) : M (St L A R (SBody Ty V)) Unit := M.noexceptIf (tr.pocs || tr.alwaysEqual) do
  let t ← getH this
  let o ← getH other
  if tr.pocs then
    setAlloc this o.alloc
    setAlloc other t.alloc
    setP this o.p
    setP other t.p
  else if tr.eq t.alloc o.alloc then
    setP this o.p
    setP other t.p
  else
    M.undef .unreachable

/-- Friend `swap`, polymorphic.h:390-393. -/
def friendSwap (lhs rhs : L) : M (St L A R (SBody Ty V)) Unit := M.noexceptIf (tr.pocs || tr.alwaysEqual) do
  swap tr lhs rhs

/-- Client code evaluates the argument expression. -/
def evalSrc : Src L X → M (St L A R (SBody Ty V)) (Fwd X)
  | .arg x => pure (.arg x)
  | .lval y => do
    let q ← deref y
    let q ← locate K q
    pure (.lval q)
  | .rval y => do
    let q ← deref y
    let q ← locate K q
    pure (.rval q)

/-- The value constructors, without (`none`) or with (`some a`) allocator argument. -/
def construct : Option A → PCtor L Ty X → M (St L A R (SBody Ty V)) (Handle A)
  | none, .default => ctorDefault K tr P
  | none, .from ty u => do
    let u ← evalSrc K u
    ctorFrom K tr P ty u
  | none, .inPlace ty us => ctorInPlace K tr P ty us
  | none, .ilist ty l us => ctorIlist K tr P ty l us
  | some a, .default => ctorDefaultA K tr P a
  | some a, .from ty u => do
    let u ← evalSrc K u
    ctorFromA K tr P a ty u
  | some a, .inPlace ty us => ctorInPlaceA K tr P a ty us
  | some a, .ilist ty l us => ctorIlistA K tr P a ty l us

/-- One call. -/
def step : POp L A Ty V X → M (St L A R (SBody Ty V)) (Out L A (Ty × V))
  | .make x a c => do
    let h ← construct K tr P a c
    emplace x h
    pure .unit
  | .copy x y => do
    let h ← ctorCopy K tr P y
    emplace x h
    pure .unit
  | .copyA x a y => do
    let h ← ctorCopyA K tr P a y
    emplace x h
    pure .unit
  | .move x y => do
    let h ← ctorMove K tr P y
    emplace x h
    pure .unit
  | .moveA x a y => do
    let h ← ctorMoveA K tr P a y
    emplace x h
    pure .unit
  | .destroy x => do
    dtor tr P x
    pure .unit
  | .assignCopy x y => do
    let r ← assignCopy K tr P x y
    pure (.self r)
  | .assignMove x y => do
    let r ← assignMove K tr P x y
    pure (.self r)
  | .deref x => do
    let p ← deref x
    let p ← locate K p
    let v ← readAny p
    pure (.value v)
  | .arrow x => do
    let p ← arrow x
    let p ← locate K p
    let v ← readAny p
    pure (.value v)
  | .modify x f => do
    let p ← deref x
    let p ← locate K p
    let v ← readAny p
    writeU p (f v.1 v.2)
    pure .unit
  | .valueless x => do
    let b ← valueless x
    pure (.bool b)
  | .getAllocator x => do
    let a ← getAllocator x
    pure (.alloc a)
  | .swap x y => do
    swap tr x y
    pure .unit
  | .friendSwap x y => do
    friendSwap tr x y
    pure .unit

/-- One call in an environment. -/
def call (o : POp L A Ty V X) (e : Env) (s : St L A R (SBody Ty V)) : Res (St L A R (SBody Ty V)) (Out L A (Ty × V)) :=
  step K tr P o (s.enter e)

end Polymorphic

namespace Polymorphic14

variable (tr : ATraits A R) (P : POps (St L A R (SBody Ty V)) A Ty X)

/-- `direct_control_block<U>(const A&, Ts&&...)` at `mem`, polymorphic_cxx14.h:131-137.  `k` is the constructor call of
`U`. The call goes through `construct` of the rebound allocator (polymorphic_cxx14.h:134-136).
Simplification: the rebound allocator passes to `U` what `a` would. -/
def cbCtor (ty : Ty) (a : A) (mem : Addr) (k : A → Addr → M (St L A R (SBody Ty V)) Unit) : M (St L A R (SBody Ty V)) Unit := do
  beginCB ty mem
  M.onThrow (k a mem) (abortCB mem)
  let r ← upcast K ty ⟨mem, K.storage ty⟩
  setCBp mem r

/-- `direct_control_block<U>::clone`, polymorphic_cxx14.h:139-149; `q` is `this`.
Simplification (also below): the rebound `cb_alloc` has the memory resource of `alloc`. -/
def clone (ty : Ty) (q : Addr) (a : A) : M (St L A R (SBody Ty V)) Addr := do
  let mem ← allocate (tr.res a)
  M.onThrow (P.block a mem (cbCtor K ty a mem (fun a m => P.copyCtor ty a m q))) (deallocate (tr.res a) mem)
  pure mem

/-- `direct_control_block<U>::move`, polymorphic_cxx14.h:151-162. -/
def moveCB (ty : Ty) (q : Addr) (a : A) : M (St L A R (SBody Ty V)) Addr := do
  let mem ← allocate (tr.res a)
  M.onThrow (P.block a mem (cbCtor K ty a mem (fun a m => P.moveCtor ty a m q))) (deallocate (tr.res a) mem)
  pure mem

/-- `direct_control_block<U>::destroy`, polymorphic_cxx14.h:164-168.  (The destructor of the control block is not
called.) -/
def destroyCB (ty : Ty) (q : Addr) (a : A) : M (St L A R (SBody Ty V)) Unit := do
  P.dtor ty a q
  deallocate (tr.res a) q

/-- The virtual call `cb->clone(alloc)`, polymorphic_cxx14.h:113. -/
def vclone (q : Addr) (a : A) : M (St L A R (SBody Ty V)) Addr := do
  let c ← readCB q
  clone K tr P c.ty q a

/-- The virtual call `cb->move(alloc)`, polymorphic_cxx14.h:114. -/
def vmove (q : Addr) (a : A) : M (St L A R (SBody Ty V)) Addr := do
  let c ← readCB q
  moveCB K tr P c.ty q a

/-- The virtual call `cb->destroy(alloc)`, polymorphic_cxx14.h:112. -/
def vdestroy (q : Addr) (a : A) : M (St L A R (SBody Ty V)) Unit := do
  let c ← readCB q
  destroyCB tr P c.ty q a

/-- `create_control_block<U>`, polymorphic_cxx14.h:176-191. -/
def createControlBlock (ty : Ty) (a : A) (k : A → Addr → M (St L A R (SBody Ty V)) Unit) :
    M (St L A R (SBody Ty V)) Addr := do
  let mem ← allocate (tr.res a)
  M.onThrow (P.block a mem (cbCtor K ty a mem k)) (deallocate (tr.res a) mem)
  pure mem

/-- `valueless_after_move`, polymorphic_cxx14.h:437-439. -/
def valueless (this : L) : M (St L A R (SBody Ty V)) Bool := do
  let h ← getH this
  pure (h.p == none)

/-- `get_allocator`, polymorphic_cxx14.h:441. -/
def getAllocator (this : L) : M (St L A R (SBody Ty V)) A := do
  let h ← getH this
  pure h.alloc

/-- Read `cb_` where it is dereferenced without a check. -/
def derefCB (this : L) : M (St L A R (SBody Ty V)) Addr := do
  let h ← getH this
  match h.p with
  | some q => pure q
  | none => M.undef .valuelessAccess

/-- `operator*` (two overloads, polymorphic_cxx14.h:427-435): the pointer `cb_->p_`.  An uninitialised `p_` is undefined. -/
def deref (this : L) : M (St L A R (SBody Ty V)) Ptr := do
  let q ← derefCB this
  let c ← readCB q
  match c.p with
  | some r => pure r
  | none => M.undef .deadObject

/-- `operator->` (two overloads, polymorphic_cxx14.h:417-425). -/
def arrow (this : L) : M (St L A R (SBody Ty V)) Ptr := do
  let q ← derefCB this
  let c ← readCB q
  match c.p with
  | some r => pure r
  | none => M.undef .deadObject

/-- `reset`, polymorphic_cxx14.h:466-471. -/
def reset (this : L) : M (St L A R (SBody Ty V)) Unit := M.noexceptIf true do
  let h ← getH this
  match h.p with
  | none => pure ()
  | some q => do
    vdestroy tr P q h.alloc
    setP this none

/-- `polymorphic(allocator_arg_t, const A&)`, polymorphic_cxx14.h:199-204. -/
def ctorDefaultA (a : A) : M (St L A R (SBody Ty V)) (Handle A) := do
  let q ← createControlBlock K tr P P.base a (fun a m => P.make P.base a m .none)
  pure ⟨some q, a⟩

/-- `polymorphic()`, polymorphic_cxx14.h:206-214. -/
def ctorDefault : M (St L A R (SBody Ty V)) (Handle A) := ctorDefaultA K tr P tr.dflt

/-- `polymorphic(allocator_arg_t, const A&, U&&)`, polymorphic_cxx14.h:273-293; `ty` is `remove_cvref_t<U>`. -/
def ctorFromA (a : A) (ty : Ty) (u : Fwd X) : M (St L A R (SBody Ty V)) (Handle A) := do
  let q ← createControlBlock K tr P ty a (fun a m => P.makeFwd ty a m u)
  pure ⟨some q, a⟩

/-- `polymorphic(U&&)`, polymorphic_cxx14.h:295-315. -/
def ctorFrom (ty : Ty) (u : Fwd X) : M (St L A R (SBody Ty V)) (Handle A) := ctorFromA K tr P tr.dflt ty u

/-- `polymorphic(allocator_arg_t, const A&, in_place_type_t<U>, Ts&&...)`, polymorphic_cxx14.h:216-227. -/
def ctorInPlaceA (a : A) (ty : Ty) (us : List X) : M (St L A R (SBody Ty V)) (Handle A) := do
  let q ← createControlBlock K tr P ty a (fun a m => P.make ty a m (.pack us))
  pure ⟨some q, a⟩

/-- `polymorphic(in_place_type_t<U>, Ts&&...)`, polymorphic_cxx14.h:259-271. -/
def ctorInPlace (ty : Ty) (us : List X) : M (St L A R (SBody Ty V)) (Handle A) := ctorInPlaceA K tr P tr.dflt ty us

/-- `polymorphic(allocator_arg_t, const A&, in_place_type_t<U>, initializer_list<I>, Ts&&...)`,
polymorphic_cxx14.h:229-241.  Line 240 creates a control block for `T`, not for `U`; `ty` (that is, `U`) is not used.
(If `T` has no such constructor the call does not compile; in that case this definition models nothing.) -/
def ctorIlistA (a : A) (_ty : Ty) (l us : List X) : M (St L A R (SBody Ty V)) (Handle A) := do
  let q ← createControlBlock K tr P P.base a (fun a m => P.make P.base a m (.ilist l us))
  pure ⟨some q, a⟩

/-- `polymorphic(in_place_type_t<U>, initializer_list<I>, Ts&&...)`, polymorphic_cxx14.h:243-257. -/
def ctorIlist (ty : Ty) (l us : List X) : M (St L A R (SBody Ty V)) (Handle A) := ctorIlistA K tr P tr.dflt ty l us

/-- `polymorphic(allocator_arg_t, const A&, const polymorphic&)`, polymorphic_cxx14.h:317-324. -/
def ctorCopyA (a : A) (other : L) : M (St L A R (SBody Ty V)) (Handle A) := do
  if !(← valueless other) then
    let q ← derefCB other
    let p ← vclone K tr P q a
    pure ⟨some p, a⟩
  else
    pure ⟨none, a⟩

/-- `polymorphic(const polymorphic&)`, polymorphic_cxx14.h:326-330. -/
def ctorCopy (other : L) : M (St L A R (SBody Ty V)) (Handle A) := do
  let o ← getH other
  ctorCopyA K tr P (tr.socc o.alloc) other

/-- `polymorphic(allocator_arg_t, const A&, polymorphic&&)`, polymorphic_cxx14.h:332-351.  Line 336 asks for
`propagate_on_container_copy_assignment` where polymorphic.h asks for `is_always_equal`. -/
def ctorMoveA (a : A) (other : L) : M (St L A R (SBody Ty V)) (Handle A) := M.noexceptIf tr.alwaysEqual do
  let o ← getH other
  if tr.pocca then
    setP other none
    pure ⟨o.p, a⟩
  else if tr.eq a o.alloc then
    setP other none
    pure ⟨o.p, a⟩
  else if !(← valueless other) then
    let q ← derefCB other
    let p ← vmove K tr P q a
    pure ⟨some p, a⟩
  else
    pure ⟨none, a⟩

/-- `polymorphic(polymorphic&&)`, polymorphic_cxx14.h:353-355: `noexcept` without a condition. -/
def ctorMove (other : L) : M (St L A R (SBody Ty V)) (Handle A) := M.noexceptIf true do
  let o ← getH other
  ctorMoveA K tr P o.alloc other

/-- `~polymorphic()`, polymorphic_cxx14.h:357. -/
def dtor (this : L) : M (St L A R (SBody Ty V)) Unit := M.noexceptIf true do
  reset tr P this
  endLife this

/-- `operator=(const polymorphic&)`, polymorphic_cxx14.h:359-382. -/
def assignCopy (this other : L) : M (St L A R (SBody Ty V)) L := do
  if this = other then pure this
  else
    let updateAlloc := tr.pocca
    if ← valueless other then
      reset tr P this
    else
      let q ← derefCB other
      let t ← getH this
      let o ← getH other
      let tmp ← vclone K tr P q (if updateAlloc then o.alloc else t.alloc)
      reset tr P this
      setP this (some tmp)
    if updateAlloc then
      let o ← getH other
      setAlloc this o.alloc
    pure this

/-- `operator=(polymorphic&&)`, polymorphic_cxx14.h:384-415. -/
def assignMove (this other : L) : M (St L A R (SBody Ty V)) L :=
  M.noexceptIf (tr.pocma || tr.alwaysEqual) do
    if this = other then pure this
    else
      let updateAlloc := tr.pocma
      if ← valueless other then
        reset tr P this
      else
        let t ← getH this
        let o ← getH other
        if tr.eq t.alloc o.alloc then
          setP this o.p
          setP other t.p
          reset tr P other
        else
          let q ← derefCB other
          let tmp ← vmove K tr P q (if updateAlloc then o.alloc else t.alloc)
          reset tr P this
          setP this (some tmp)
      if updateAlloc then
        let o ← getH other
        setAlloc this o.alloc
      pure this

/-- Member `swap`, polymorphic_cxx14.h:443-458. -/
def swap (this other : L) : M (St L A R (SBody Ty V)) Unit := M.noexceptIf (tr.pocs || tr.alwaysEqual) do
  let t ← getH this
  let o ← getH other
  if tr.pocs then
    setAlloc this o.alloc
    setAlloc other t.alloc
    setP this o.p
    setP other t.p
  else if tr.eq t.alloc o.alloc then
    setP this o.p
    setP other t.p
  else
    M.undef .unreachable

/-- Friend `swap`, polymorphic_cxx14.h:460-463. -/
def friendSwap (lhs rhs : L) : M (St L A R (SBody Ty V)) Unit := M.noexceptIf (tr.pocs || tr.alwaysEqual) do
  swap tr lhs rhs

/-- Client code evaluates the argument expression. -/
def evalSrc : Src L X → M (St L A R (SBody Ty V)) (Fwd X)
  | .arg x => pure (.arg x)
  | .lval y => do
    let q ← deref y
    let q ← locate K q
    pure (.lval q)
  | .rval y => do
    let q ← deref y
    let q ← locate K q
    pure (.rval q)

/-- The value constructors, without or with allocator argument; as `Polymorphic.construct`. -/
def construct : Option A → PCtor L Ty X → M (St L A R (SBody Ty V)) (Handle A)
  | none, .default => ctorDefault K tr P
  | none, .from ty u => do
    let u ← evalSrc K u
    ctorFrom K tr P ty u
  | none, .inPlace ty us => ctorInPlace K tr P ty us
  | none, .ilist ty l us => ctorIlist K tr P ty l us
  | some a, .default => ctorDefaultA K tr P a
  | some a, .from ty u => do
    let u ← evalSrc K u
    ctorFromA K tr P a ty u
  | some a, .inPlace ty us => ctorInPlaceA K tr P a ty us
  | some a, .ilist ty l us => ctorIlistA K tr P a ty l us

/-- One call; as `Polymorphic.step`. -/
def step : POp L A Ty V X → M (St L A R (SBody Ty V)) (Out L A (Ty × V))
  | .make x a c => do
    let h ← construct K tr P a c
    emplace x h
    pure .unit
  | .copy x y => do
    let h ← ctorCopy K tr P y
    emplace x h
    pure .unit
  | .copyA x a y => do
    let h ← ctorCopyA K tr P a y
    emplace x h
    pure .unit
  | .move x y => do
    let h ← ctorMove K tr P y
    emplace x h
    pure .unit
  | .moveA x a y => do
    let h ← ctorMoveA K tr P a y
    emplace x h
    pure .unit
  | .destroy x => do
    dtor tr P x
    pure .unit
  | .assignCopy x y => do
    let r ← assignCopy K tr P x y
    pure (.self r)
  | .assignMove x y => do
    let r ← assignMove K tr P x y
    pure (.self r)
  | .deref x => do
    let p ← deref x
    let p ← locate K p
    let v ← readAny p
    pure (.value v)
  | .arrow x => do
    let p ← arrow x
    let p ← locate K p
    let v ← readAny p
    pure (.value v)
  | .modify x f => do
    let p ← deref x
    let p ← locate K p
    let v ← readAny p
    writeU p (f v.1 v.2)
    pure .unit
  | .valueless x => do
    let b ← valueless x
    pure (.bool b)
  | .getAllocator x => do
    let a ← getAllocator x
    pure (.alloc a)
  | .swap x y => do
    swap tr x y
    pure .unit
  | .friendSwap x y => do
    friendSwap tr x y
    pure .unit

/-- One call in an environment. -/
def call (o : POp L A Ty V X) (e : Env) (s : St L A R (SBody Ty V)) : Res (St L A R (SBody Ty V)) (Out L A (Ty × V)) :=
  step K tr P o (s.enter e)

end Polymorphic14
end
end Verif.Subobject
