import Verif.Compare

/-!
# exploration/wrapper.h

`xyz::wrapper<T>` and `xyz::constrained_wrapper<T>`, "an approximation of indirect without allocators".  Line numbers
refer to /repo/exploration/wrapper.h.  The bodies of the members of the two classes are the same; the `requires`
clauses of `constrained_wrapper` are compile-time and are not modelled.  There is no allocator: the allocator member of
`Handle` and the memory resource are `Unit`.

Neither class declares an assignment operator or a move constructor.  Declaring a copy constructor and a destructor
suppresses the implicit move members but not the implicit copy assignment operator (deprecated in [depr.impldec]), so
both classes are assignable.  The copy constructor used to copy a `constrained_wrapper` is a template (the non-template
one is `requires false`), which changes neither of this.
-/

set_option autoImplicit false

namespace Verif.Wrapper
open Verif

section
variable {L V X : Type} [DecidableEq L]
variable (T : TOps (St L Unit Unit (Obj V)) Unit X)

/-- `new T(...)`: the storage is obtained first ([expr.new]); if the constructor `k` throws it is given back. -/
def newT (k : Addr → M (St L Unit Unit (Obj V)) Unit) : M (St L Unit Unit (Obj V)) Addr := do
  let p ← allocate ()
  M.onThrow (k p) (deallocate () p)
  pure p

/-- `delete p`: nothing if `p` is null. -/
def deleteT : Option Addr → M (St L Unit Unit (Obj V)) Unit
  | none => pure ()
  | some p => do
    T.dtor () p
    deallocate () p

/-- `*t_` for the member `t_` of the object at `y`. -/
def pointee (y : L) : M (St L Unit Unit (Obj V)) Addr := do
  let h ← getH y
  match h.p with
  | some p => pure p
  | none => M.undef .valuelessAccess

/-- `wrapper()`, wrapper.h:11; `constrained_wrapper()`, wrapper.h:30-33. -/
def ctorDefault : M (St L Unit Unit (Obj V)) (Handle Unit) := do
  let p ← newT fun m => T.make () m .none
  pure ⟨some p, ()⟩

/-- `wrapper(const wrapper&)`, wrapper.h:13; `constrained_wrapper(const constrained_wrapper&)`, wrapper.h:38-41. -/
def ctorCopy (other : L) : M (St L Unit Unit (Obj V)) (Handle Unit) := do
  let p ← newT fun m => do
    let q ← pointee other
    T.copyCtor () m q
  pure ⟨some p, ()⟩

/-- `~wrapper()`, wrapper.h:15; `~constrained_wrapper()`, wrapper.h:43. -/
def dtor (this : L) : M (St L Unit Unit (Obj V)) Unit := M.noexceptIf true do
  let h ← getH this
  deleteT T h.p
  endLife this

/-- The implicitly defined copy assignment operator: assigns the member `t_`. -/
def assign (this other : L) : M (St L Unit Unit (Obj V)) L := do
  let o ← getH other
  setP this o.p
  pure this

/-- `operator==`, wrapper.h:17-20 and :45-49, for two objects of the same class.  (Between `wrapper<T>` and
`wrapper<U>` with different `U` it does not compile if it is used, since `other.t_` is private there.) -/
def equal (eqT : V → V → M (St L Unit Unit (Obj V)) Bool) (this other : L) : M (St L Unit Unit (Obj V)) Bool := do
  let p ← pointee this
  let v ← readObj p
  let q ← pointee other
  let w ← readObj q
  eqT v w

/-- What a program can do with wrappers.  Moves are copies. -/
inductive Op (L : Type) where
  | make (x : L)
  | copy (x y : L)
  | move (x y : L)
  | assign (x y : L)
  | destroy (x : L)
  deriving DecidableEq, Repr

/-- One step of the program; what it returns is of no interest. -/
def step : Op L → M (St L Unit Unit (Obj V)) Unit
  | .make x => do
    let h ← ctorDefault T
    emplace x h
  | .copy x y => do
    let h ← ctorCopy T y
    emplace x h
  | .move x y => do
    let h ← ctorCopy T y
    emplace x h
  | .assign x y => do
    let _ ← assign x y
    pure ()
  | .destroy x => dtor T x

/-- One step in an environment. -/
def call (o : Op L) (e : Env) (s : St L Unit Unit (Obj V)) : Res (St L Unit Unit (Obj V)) Unit := step T o (s.enter e)

end
end Verif.Wrapper
