import Verif.Wrapper

/-!
# exploration/incomplete_types.h and incomplete_types.cc

Classes with a member that refers to a class `Incomplete` which is complete only in incomplete_types.cc.  Modelled are
`UniquePtrMember` and `VariantWrapperMember`.  The members of `WrapperMember` and `ConstrainedWrapperMember` are all
defaulted, so what they do is what `Verif/Wrapper.lean` models; those of `VectorMember` and `VariantVectorMember` are
`std::vector`'s and are not modelled.  Line numbers refer to /repo/exploration/incomplete_types.cc unless a header is
named.

`Incomplete` is any class `T` here: the code uses nothing but its constructors, its destructor and its `operator==`.  All
these classes declare a copy constructor and a destructor and hence have no move members, moves are copies.  The copy
assignment operator of `UniquePtrMember` is implicitly deleted, since `std::unique_ptr` cannot be copied.
-/

set_option autoImplicit false

namespace Verif.Members
open Verif Wrapper

/-! ## UniquePtrMember -/

namespace UniquePtr
section
variable {L V X : Type} [DecidableEq L]
variable (T : TOps (St L Unit Unit (Obj V)) Unit X)

/-- `UniquePtrMember()`, :18. -/
def ctorDefault : M (St L Unit Unit (Obj V)) (Handle Unit) := do
  let p ← newT fun m => T.make () m .none
  pure ⟨some p, ()⟩

/-- `UniquePtrMember(const UniquePtrMember&)`, :20-21.  The storage is obtained before `*other.x` is evaluated. -/
def ctorCopy (other : L) : M (St L Unit Unit (Obj V)) (Handle Unit) := do
  let p ← newT fun m => do
    let q ← pointee other
    T.copyCtor () m q
  pure ⟨some p, ()⟩

/-- `~UniquePtrMember()`, :23: the destructor of `std::unique_ptr` deletes the pointer unless it is null. -/
def dtor (this : L) : M (St L Unit Unit (Obj V)) Unit := M.noexceptIf true do
  let h ← getH this
  match h.p with
  | some p => do
    T.dtor () p
    deallocate () p
  | none => pure ()
  endLife this

/-- `operator==`, :25-27. -/
def equal (eqT : V → V → M (St L Unit Unit (Obj V)) Bool) (this other : L) : M (St L Unit Unit (Obj V)) Bool := do
  let p ← pointee this
  let v ← readObj p
  let q ← pointee other
  let w ← readObj q
  eqT v w

/-- `this.x.swap(other.x)`: the member is public (incomplete_types.h:24), and this is what can be done with it without
knowing `Incomplete` and without making it null. -/
def swap (this other : L) : M (St L Unit Unit (Obj V)) Unit := M.noexceptIf true do
  let t ← getH this
  let o ← getH other
  setP this o.p
  setP other t.p

/-- What a program can do with these objects. -/
inductive Op (L : Type) where
  | make (x : L)
  | copy (x y : L)
  | move (x y : L)
  | swap (x y : L)
  | destroy (x : L)
  deriving DecidableEq, Repr

/-- One step of the program. -/
def step : Op L → M (St L Unit Unit (Obj V)) Unit
  | .make x => do
    let h ← ctorDefault T
    emplace x h
  | .copy x y | .move x y => do
    let h ← ctorCopy T y
    emplace x h
  | .swap x y => swap x y
  | .destroy x => dtor T x

/-- One step in an environment. -/
def call (o : Op L) (e : Env) (s : St L Unit Unit (Obj V)) : Res (St L Unit Unit (Obj V)) Unit := step T o (s.enter e)

end
end UniquePtr

/-! ## VariantWrapperMember -/

namespace Variant

/-- The member `x` of an object: there is no object; it is valueless by exception; it holds an `int`; it holds a wrapper. -/
inductive Slot where
  | dead
  | valueless
  | int (n : Int)
  | held
  deriving DecidableEq, Repr

section
variable {L V X : Type} [DecidableEq L]
variable (T : TOps (St L Unit Unit (Obj V)) Unit X)

/-- Machine state: that of the wrappers (the one held by object `x` is at `x`), and what the objects hold. -/
abbrev VS (L V : Type) := St L Unit Unit (Obj V) × (L → Slot)

/-- Something is done with wrappers. -/
def lift {α : Type} (m : M (St L Unit Unit (Obj V)) α) : M (VS L V) α := fun s =>
  match m s.1 with
  | .ok a t => .ok a (t, s.2)
  | .threw e t => .threw e (t, s.2)
  | .terminated => .terminated
  | .ub u => .ub u
  | .diverged => .diverged

def look (x : L) : M (VS L V) Slot := fun s => .ok (s.2 x) s

def set (x : L) (a : Slot) : M (VS L V) Unit := fun s => .ok () (s.1, upd s.2 x a)

/-- `VariantWrapperMember()`, :41: the first alternative, a wrapper ([variant.ctor]). -/
def ctorDefault (this : L) : M (VS L V) Unit := do
  lift (Wrapper.step T (.make this))
  set this .held

/-- `VariantWrapperMember(const VariantWrapperMember&)`, :42-43: what `other` holds is copied ([variant.ctor]). -/
def ctorCopy (this other : L) : M (VS L V) Unit := do
  match ← look other with
  | .held => do
    lift (Wrapper.step T (.copy this other))
    set this .held
  | a => set this a

/-- What the object holds is destroyed ([variant.dtor]). -/
def reset (this : L) : M (VS L V) Unit := do
  match ← look this with
  | .held => do
    lift (Wrapper.step T (.destroy this))
    set this .valueless
  | _ => set this .valueless

/-- `~VariantWrapperMember()`, :44. -/
def dtor (this : L) : M (VS L V) Unit := do
  reset T this
  set this .dead

/-- `this.x = n` ([variant.assign]): an `int` is assigned, or emplaced. -/
def assignInt (this : L) (n : Int) : M (VS L V) Unit := do
  match ← look this with
  | .int _ => set this (.int n)
  | _ => do
    reset T this
    set this (.int n)

/-- The implicitly defined copy assignment operator, which assigns the variant ([variant.assign]).  If both hold a
wrapper these are assigned.  To hold a wrapper after it did not, `this` destroys what it holds first: wrapper's copy
constructor is not noexcept, and its moves are copies. -/
def assign (this other : L) : M (VS L V) Unit := do
  match ← look this, ← look other with
  | .valueless, .valueless => pure ()
  | _, .valueless => reset T this
  | _, .int n => assignInt T this n
  | .held, .held => lift (Wrapper.step T (.assign this other))
  | _, _ => do
    reset T this
    lift (Wrapper.step T (.copy this other))
    set this .held

/-- `operator==`, :45-46: that of `std::variant` ([variant.relops]). -/
def equal (eqT : V → V → M (St L Unit Unit (Obj V)) Bool) (this other : L) : M (VS L V) Bool := do
  match ← look this, ← look other with
  | .valueless, .valueless => pure true
  | .int m, .int n => pure (m == n)
  | .held, .held => lift (Wrapper.equal eqT this other)
  | _, _ => pure false

/-- What a program can do with these objects. -/
inductive Op (L : Type) where
  | make (x : L)
  | copy (x y : L)
  | move (x y : L)
  | assignInt (x : L) (n : Int)
  | assign (x y : L)
  | destroy (x : L)
  deriving DecidableEq, Repr

/-- One step of the program. -/
def step : Op L → M (VS L V) Unit
  | .make x => ctorDefault T x
  | .copy x y | .move x y => ctorCopy T x y
  | .assignInt x n => assignInt T x n
  | .assign x y => assign T x y
  | .destroy x => dtor T x

/-- One step in an environment. -/
def call (o : Op L) (e : Env) (s : VS L V) : Res (VS L V) Unit := step T o (s.1.enter e, s.2)

end
end Variant
end Verif.Members
