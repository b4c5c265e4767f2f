import Verif.Types

/-!
# polymorphic.h

One definition per function of `xyz::polymorphic` (C++20) and of its control blocks.  Line numbers refer to
/repo/polymorphic.h.  The member `cb_` is the pointer `p` of the object's `Handle`.  Constructors return the data
members of the new object (see `emplace`).  Constraints are compile-time and are not part of these definitions.
-/

set_option autoImplicit false

namespace Verif

/-- The types that can be owned by a `polymorphic<T, A>`: `T` itself (`base`) and the types derived from it, with
their operations.  `Ty` names the types, `V` are the values of all of them, `X` the type of constructor arguments.
The last `Nat` of every operation is the environment's choice, as in `TSpec`. -/
structure PSpec (Ty V X : Type) where
  base : Ty
  make : Ty → TArgs X → Nat → Except Exn V
  copy : Ty → V → Nat → Except Exn V
  move : Ty → V → Nat → Except Exn V × V

/-- What the headers do with objects of a type `U`: computations on the addresses of their control blocks.  As in `TOps`,
constructors and destructors have the allocator as an argument. -/
structure POps (σ A Ty X : Type) where
  base : Ty
  make : Ty → A → (dst : Addr) → TArgs X → M σ Unit
  copyCtor : Ty → A → (dst src : Addr) → M σ Unit
  moveCtor : Ty → A → (dst src : Addr) → M σ Unit
  dtor : Ty → A → Addr → M σ Unit
  /-- `construct` of the rebound allocator for a control block, given what the constructor of the control block does -/
  block : A → Addr → M σ Unit → M σ Unit

/-- `U(std::forward<Arg>(u))` at `dst`. -/
def POps.makeFwd {σ A Ty X : Type} (P : POps σ A Ty X) (ty : Ty) (a : A) (dst : Addr) : Fwd X → M σ Unit
  | .arg x => P.make ty a dst (.pack [x])
  | .lval q => P.copyCtor ty a dst q
  | .rval q => P.moveCtor ty a dst q

/-- A control block, `direct_control_block<U>`, polymorphic.h:52-76: the type `U` (the vtable pointer), the base class
member `p_` (`none`: not initialised) and the storage `storage_.u_` (`none`: no live `U` in it).
The address of `u_` is identified with the address of the block. -/
structure CB (Ty V : Type) where
  ty : Ty
  p : Option Addr
  u : Option V
  deriving DecidableEq, Repr

/-- Contents of a block of a `polymorphic`: raw storage or a control block. -/
abbrev PBody (Ty V : Type) := Option (CB Ty V)

instance (Ty V : Type) : Body (PBody Ty V) where
  raw := none
  occupied b := (b.bind (·.u)).isSome

section
variable {L A R Ty V X : Type} [DecidableEq L] [DecidableEq R] [DecidableEq Ty]

/-- Read the control block at `q`: what a virtual call or an access to `p_` does first. -/
def readCB (q : Addr) : M (St L A R (PBody Ty V)) (CB Ty V) := do
  match ← readBody q with
  | some c => pure c
  | none => M.undef .deadObject

/-- Read the `U` in the control block at `q`, whatever `U` is. -/
def readAny (q : Addr) : M (St L A R (PBody Ty V)) (Ty × V) := do
  let c ← readCB q
  match c.u with
  | some v => pure (c.ty, v)
  | none => M.undef .deadObject

/-- Read the object in the control block at `q`, which has to be a `ty`. -/
def readU (ty : Ty) (q : Addr) : M (St L A R (PBody Ty V)) V := do
  let c ← readCB q
  match c.u with
  | some v => if c.ty = ty then pure v else M.undef .deadObject
  | none => M.undef .deadObject

/-- Change the value of the live object in the control block at `q`. -/
def writeU (q : Addr) (v : V) : M (St L A R (PBody Ty V)) Unit := do
  let c ← readCB q
  match c.u with
  | some _ => writeBody q (some { c with u := some v })
  | none => M.undef .deadObject

/-- The lifetime of a `ty` with value `v` begins in the control block at `q`, which has to be one for `ty`. -/
def beginU (ty : Ty) (q : Addr) (v : V) (how : How) : M (St L A R (PBody Ty V)) Unit := fun s =>
  match s.heap q with
  | some ⟨r, some ⟨t, p, none⟩⟩ =>
    if t = ty then
      .ok () { s with heap := upd s.heap q (some ⟨r, some ⟨t, p, some v⟩⟩), trace := s.trace ++ [.construct q how] }
    else .ub .notRaw
  | _ => .ub .notRaw

/-- The lifetime of the `ty` in the control block at `q` ends. -/
def endU (ty : Ty) (q : Addr) : M (St L A R (PBody Ty V)) Unit := do
  let _ ← readU ty q
  let c ← readCB q
  writeBody q (some { c with u := none })
  emit (.destroy q)

/-- The outcome of a constructor of `ty`. -/
def finishU (ty : Ty) (q : Addr) (how : How) : Except Exn V → M (St L A R (PBody Ty V)) Unit
  | .ok v => beginU ty q v how
  | .error e => M.throwE e

/-- The operations of owned types without `polymorphic` or `indirect` members. -/
def plainP (P : PSpec Ty V X) : POps (St L A R (PBody Ty V)) A Ty X where
  base := P.base
  make ty _ dst xs := do
    let c ← choose
    finishU ty dst .args (P.make ty xs c)
  copyCtor ty _ dst src := do
    let v ← readU ty src
    let c ← choose
    finishU ty dst (.copyOf src) (P.copy ty v c)
  moveCtor ty _ dst src := do
    let v ← readU ty src
    let c ← choose
    writeU src (P.move ty v c).2
    finishU ty dst (.moveOf src) (P.move ty v c).1
  dtor ty _ q := endU ty q
  block _ _ m := m

/-- The lifetime of a control block for `ty` begins in raw storage: vtable pointer set, `p_` and `u_` not initialised.
(What the language does at the start of the constructor, polymorphic.h:77-78.) -/
def beginCB (ty : Ty) (q : Addr) : M (St L A R (PBody Ty V)) Unit := fun s =>
  match s.heap q with
  | some ⟨r, none⟩ => .ok () { s with heap := upd s.heap q (some ⟨r, some ⟨ty, none, none⟩⟩) }
  | _ => .ub .notRaw

/-- An exception leaves the constructor of the control block at `q`: there is only storage left. -/
def abortCB (q : Addr) : M (St L A R (PBody Ty V)) Unit := do
  let c ← readCB q
  match c.u with
  | some _ => M.undef .freeLive
  | none => writeBody q none

/-- Write `p_`. -/
def setCBp (q r : Addr) : M (St L A R (PBody Ty V)) Unit := do
  let c ← readCB q
  writeBody q (some { c with p := some r })

namespace Polymorphic

variable (tr : ATraits A R) (P : POps (St L A R (PBody Ty V)) A Ty X)

/-- `direct_control_block<U>(const A&, Ts&&...)` at `mem`, polymorphic.h:77-83.  `k` is the constructor call of `U`,
through `construct` of the rebound allocator (polymorphic.h:79-81).
Simplification: the rebound allocator passes to `U` what `a` would. -/
def cbCtor (ty : Ty) (a : A) (mem : Addr) (k : A → Addr → M (St L A R (PBody Ty V)) Unit) : M (St L A R (PBody Ty V)) Unit := do
  beginCB ty mem
  M.onThrow (k a mem) (abortCB mem)
  setCBp mem mem

/-- `direct_control_block<U>::clone`, polymorphic.h:85-95; `q` is `this`.
Simplification (also below): the rebound `cb_alloc` has the memory resource of `alloc`. -/
def clone (ty : Ty) (q : Addr) (a : A) : M (St L A R (PBody Ty V)) Addr := do
  let mem ← allocate (tr.res a)
  M.onThrow (P.block a mem (cbCtor ty a mem (fun a m => P.copyCtor ty a m q))) (deallocate (tr.res a) mem)
  pure mem

/-- `direct_control_block<U>::move`, polymorphic.h:97-108. -/
def moveCB (ty : Ty) (q : Addr) (a : A) : M (St L A R (PBody Ty V)) Addr := do
  let mem ← allocate (tr.res a)
  M.onThrow (P.block a mem (cbCtor ty a mem (fun a m => P.moveCtor ty a m q))) (deallocate (tr.res a) mem)
  pure mem

/-- `direct_control_block<U>::destroy`, polymorphic.h:110-114.  (The destructor of the control block is not called.) -/
def destroyCB (ty : Ty) (q : Addr) (a : A) : M (St L A R (PBody Ty V)) Unit := do
  P.dtor ty a q
  deallocate (tr.res a) q

/-- The virtual call `cb->clone(alloc)`, polymorphic.h:58. -/
def vclone (q : Addr) (a : A) : M (St L A R (PBody Ty V)) Addr := do
  let c ← readCB q
  clone tr P c.ty q a

/-- The virtual call `cb->move(alloc)`, polymorphic.h:59. -/
def vmove (q : Addr) (a : A) : M (St L A R (PBody Ty V)) Addr := do
  let c ← readCB q
  moveCB tr P c.ty q a

/-- The virtual call `cb->destroy(alloc)`, polymorphic.h:57. -/
def vdestroy (q : Addr) (a : A) : M (St L A R (PBody Ty V)) Unit := do
  let c ← readCB q
  destroyCB tr P c.ty q a

/-- `create_control_block<U>`, polymorphic.h:128-144. -/
def createControlBlock (ty : Ty) (a : A) (k : A → Addr → M (St L A R (PBody Ty V)) Unit) :
    M (St L A R (PBody Ty V)) Addr := do
  let mem ← allocate (tr.res a)
  M.onThrow (P.block a mem (cbCtor ty a mem k)) (deallocate (tr.res a) mem)
  pure mem

/-- `valueless_after_move`, polymorphic.h:363-365. -/
def valueless (this : L) : M (St L A R (PBody Ty V)) Bool := do
  let h ← getH this
  pure (h.p == none)

/-- `get_allocator`, polymorphic.h:367. -/
def getAllocator (this : L) : M (St L A R (PBody Ty V)) A := do
  let h ← getH this
  pure h.alloc

/-- Read `cb_` where it is dereferenced without a check. -/
def derefCB (this : L) : M (St L A R (PBody Ty V)) Addr := do
  let h ← getH this
  match h.p with
  | some q => pure q
  | none => M.undef .valuelessAccess

/-- `operator*` (two overloads, polymorphic.h:353-361): the address `cb_->p_`.  An uninitialised `p_` is undefined. -/
def deref (this : L) : M (St L A R (PBody Ty V)) Addr := do
  let q ← derefCB this
  let c ← readCB q
  match c.p with
  | some r => pure r
  | none => M.undef .deadObject

/-- `operator->` (two overloads, polymorphic.h:343-351). -/
def arrow (this : L) : M (St L A R (PBody Ty V)) Addr := do
  let q ← derefCB this
  let c ← readCB q
  match c.p with
  | some r => pure r
  | none => M.undef .deadObject

/-- `reset`, polymorphic.h:396-401. -/
def reset (this : L) : M (St L A R (PBody Ty V)) Unit := M.noexceptIf true do
  let h ← getH this
  match h.p with
  | none => pure ()
  | some q => do
    vdestroy tr P q h.alloc
    setP this none

/-- `polymorphic(allocator_arg_t, const A&)`, polymorphic.h:203-208. -/
def ctorDefaultA (a : A) : M (St L A R (PBody Ty V)) (Handle A) := do
  let q ← createControlBlock tr P P.base a (fun a m => P.make P.base a m .none)
  pure ⟨some q, a⟩

/-- `polymorphic()`, polymorphic.h:156-160. -/
def ctorDefault : M (St L A R (PBody Ty V)) (Handle A) := ctorDefaultA tr P tr.dflt

/-- `polymorphic(allocator_arg_t, const A&, U&&)`, polymorphic.h:210-217; `ty` is `remove_cvref_t<U>`. -/
def ctorFromA (a : A) (ty : Ty) (u : Fwd X) : M (St L A R (PBody Ty V)) (Handle A) := do
  let q ← createControlBlock tr P ty a (fun a m => P.makeFwd ty a m u)
  pure ⟨some q, a⟩

/-- `polymorphic(U&&)`, polymorphic.h:162-168. -/
def ctorFrom (ty : Ty) (u : Fwd X) : M (St L A R (PBody Ty V)) (Handle A) := ctorFromA tr P tr.dflt ty u

/-- `polymorphic(allocator_arg_t, const A&, in_place_type_t<U>, Ts&&...)`, polymorphic.h:219-227. -/
def ctorInPlaceA (a : A) (ty : Ty) (us : List X) : M (St L A R (PBody Ty V)) (Handle A) := do
  let q ← createControlBlock tr P ty a (fun a m => P.make ty a m (.pack us))
  pure ⟨some q, a⟩

/-- `polymorphic(in_place_type_t<U>, Ts&&...)`, polymorphic.h:170-177. -/
def ctorInPlace (ty : Ty) (us : List X) : M (St L A R (PBody Ty V)) (Handle A) := ctorInPlaceA tr P tr.dflt ty us

/-- `polymorphic(allocator_arg_t, const A&, in_place_type_t<U>, initializer_list<I>, Ts&&...)`,
polymorphic.h:229-238. -/
def ctorIlistA (a : A) (ty : Ty) (l us : List X) : M (St L A R (PBody Ty V)) (Handle A) := do
  let q ← createControlBlock tr P ty a (fun a m => P.make ty a m (.ilist l us))
  pure ⟨some q, a⟩

/-- `polymorphic(in_place_type_t<U>, initializer_list<I>, Ts&&...)`, polymorphic.h:179-187. -/
def ctorIlist (ty : Ty) (l us : List X) : M (St L A R (PBody Ty V)) (Handle A) := ctorIlistA tr P tr.dflt ty l us

/-- `polymorphic(allocator_arg_t, const A&, const polymorphic&)`, polymorphic.h:240-248. -/
def ctorCopyA (a : A) (other : L) : M (St L A R (PBody Ty V)) (Handle A) := do
  if !(← valueless other) then
    let q ← derefCB other
    let p ← vclone tr P q a
    pure ⟨some p, a⟩
  else
    pure ⟨none, a⟩

/-- `polymorphic(const polymorphic&)`, polymorphic.h:189-193. -/
def ctorCopy (other : L) : M (St L A R (PBody Ty V)) (Handle A) := do
  let o ← getH other
  ctorCopyA tr P (tr.socc o.alloc) other

/-- `polymorphic(allocator_arg_t, const A&, polymorphic&&)`, polymorphic.h:250-267. -/
def ctorMoveA (a : A) (other : L) : M (St L A R (PBody Ty V)) (Handle A) := M.noexceptIf tr.alwaysEqual do
  let o ← getH other
  if tr.alwaysEqual then
    setP other none
    pure ⟨o.p, a⟩
  else if tr.eq a o.alloc then
    setP other none
    pure ⟨o.p, a⟩
  else if !(← valueless other) then
    let q ← derefCB other
    let p ← vmove tr P q a
    pure ⟨some p, a⟩
  else
    pure ⟨none, a⟩

/-- `polymorphic(polymorphic&&)`, polymorphic.h:195-197. -/
def ctorMove (other : L) : M (St L A R (PBody Ty V)) (Handle A) := M.noexceptIf tr.alwaysEqual do
  let o ← getH other
  ctorMoveA tr P o.alloc other

/-- `~polymorphic()`, polymorphic.h:273. -/
def dtor (this : L) : M (St L A R (PBody Ty V)) Unit := M.noexceptIf true do
  reset tr P this
  endLife this

/-- `operator=(const polymorphic&)`, polymorphic.h:279-303. -/
def assignCopy (this other : L) : M (St L A R (PBody Ty V)) L := do
  if this = other then pure this
  else
    let updateAlloc := tr.pocca
    if ← valueless other then
      reset tr P this
    else
      let q ← derefCB other
      let t ← getH this
      let o ← getH other
      let tmp ← vclone tr P q (if updateAlloc then o.alloc else t.alloc)
      reset tr P this
      setP this (some tmp)
    if updateAlloc then
      let o ← getH other
      setAlloc this o.alloc
    pure this

/-- `operator=(polymorphic&&)`, polymorphic.h:305-337. -/
def assignMove (this other : L) : M (St L A R (PBody Ty V)) L :=
  M.noexceptIf (tr.pocma || tr.alwaysEqual) do
    if this = other then pure this
    else
      let updateAlloc := tr.pocma
      if ← valueless other then
        reset tr P this
      else
        let t ← getH this
        let o ← getH other
        if tr.eq t.alloc o.alloc then
          setP this o.p
          setP other t.p
          reset tr P other
        else
          let q ← derefCB other
          let tmp ← vmove tr P q (if updateAlloc then o.alloc else t.alloc)
          reset tr P this
          setP this (some tmp)
      if updateAlloc then
        let o ← getH other
        setAlloc this o.alloc
      pure this

/-- Member `swap`, polymorphic.h:373-388. -/
def swap (this other : L) : M (St L A R (PBody Ty V)) Unit := M.noexceptIf (tr.pocs || tr.alwaysEqual) do
  let t ← getH this
  let o ← getH other
  if tr.pocs then
    setAlloc this o.alloc
    setAlloc other t.alloc
    setP this o.p
    setP other t.p
  else if tr.eq t.alloc o.alloc then
    setP this o.p
    setP other t.p
  else
    M.undef .unreachable

/-- Friend `swap`, polymorphic.h:390-393. -/
def friendSwap (lhs rhs : L) : M (St L A R (PBody Ty V)) Unit := M.noexceptIf (tr.pocs || tr.alwaysEqual) do
  swap tr lhs rhs

end Polymorphic
end
end Verif
