import Verif.IndirectOps

/-!
# Specification of `indirect`

What DRAFT.md says `indirect` does, without heap, pointers or memory resources: an object is an allocator
and an optional value.  From the model only the signatures (`Op`, `Out`, `TSpec`, `ATraits`) are used.
-/

set_option autoImplicit false

namespace Verif.Spec
open Verif

/-- An `indirect` as a value: its allocator, and its value unless it is valueless. -/
structure Box (A V : Type) where
  alloc : A
  val : Option V
  deriving DecidableEq, Repr

/-- All objects: `none` means that no object of that name is alive. -/
abbrev Boxes (L A V : Type) := L → Option (Box A V)

/-- Outcome of a call. -/
inductive Result (L A V : Type) where
  | ret (o : Out L A V) (σ : Boxes L A V)
  | threw (e : Exn) (σ : Boxes L A V)
  | terminated
  /-- a precondition is violated -/
  | illegal

section
variable {L A R V X : Type} [DecidableEq L]

/-- The value held by object `x`, if it is alive and not valueless. -/
def valueOf (σ : Boxes L A V) (x : L) : Option V := (σ x).bind (·.val)

/-- No object `x` is alive. -/
def Dead (σ : Boxes L A V) (x : L) : Prop := σ x = none

/-- Object `x` is alive. -/
def Live (σ : Boxes L A V) (x : L) : Prop := ∃ b, σ x = some b

/-- Object `x` is alive and not valueless. -/
def Engaged (σ : Boxes L A V) (x : L) : Prop := ∃ v, valueOf σ x = some v

/-- Preconditions of an argument expression. -/
def LegalSrc (σ : Boxes L A V) : Src L X → Prop
  | .arg _ => True
  | .lval y => Engaged σ y
  | .rval y => Engaged σ y

/-- Preconditions of a value constructor. -/
def LegalCtor (σ : Boxes L A V) : Ctor L X → Prop
  | .from u => LegalSrc σ u
  | .inPlaceOne u => LegalSrc σ u
  | _ => True

/-- swap's precondition (DRAFT.md [indirect.swap]): the allocators propagate or compare equal. -/
def LegalSwap (tr : ATraits A R) (σ : Boxes L A V) (x y : L) : Prop :=
  ∃ bx bcy, σ x = some bx ∧ σ y = some bcy ∧ (tr.pocs = true ∨ tr.eq bx.alloc bcy.alloc = true)

/-- Documented preconditions of every call. -/
def Legal (tr : ATraits A R) (σ : Boxes L A V) : Op L A V X → Prop
  | .make x _ c => Dead σ x ∧ LegalCtor σ c
  | .copy x y => Dead σ x ∧ Live σ y
  | .copyA x _ y => Dead σ x ∧ Live σ y
  | .move x y => Dead σ x ∧ Live σ y
  | .moveA x _ y => Dead σ x ∧ Live σ y
  | .destroy x => Live σ x
  | .assignCopy x y => Live σ x ∧ Live σ y
  | .assignMove x y => Live σ x ∧ Live σ y
  | .assignFrom x u => Live σ x ∧ LegalSrc σ u
  | .deref x => Engaged σ x
  | .arrow x => Engaged σ x
  | .modify x _ => Engaged σ x
  | .valueless x => Live σ x
  | .getAllocator x => Live σ x
  | .swap x y => LegalSwap tr σ x y
  | .friendSwap x y => LegalSwap tr σ x y

/-- Object `x` becomes `b`. -/
def put (σ : Boxes L A V) (x : L) (b : Box A V) : Boxes L A V := fun z => if z = x then some b else σ z

/-- The value of `x` becomes `v`; its allocator stays. -/
def setVal (σ : Boxes L A V) (x : L) (v : Option V) : Boxes L A V := fun z =>
  if z = x then (σ x).map (fun b => { b with val := v }) else σ z

/-- Object `x` is gone. -/
def drop (σ : Boxes L A V) (x : L) : Boxes L A V := fun z => if z = x then none else σ z

variable (tr : ATraits A R) (T : TSpec V X)
/- `mem`: does the allocation of this call (if there is one) succeed?
   `n`: the environment's number for the operation of `T` of this call (if there is one). -/
variable (mem : Bool) (n : Nat)

/-- A new `T` is built in new storage: fails if there is no storage or if `T`'s constructor throws. -/
def build (r : Except Exn V) : Except Exn V := if mem then r else .error .badAlloc

/-- A new `T` is built from a forwarded source.  Moving from `*y` changes `*y` to what `T`'s move
constructor leaves there, whether or not it throws. -/
def buildFrom (σ : Boxes L A V) : Src L X → Except Exn V × Boxes L A V
  | .arg x => (build mem (T.make (.pack [x]) n), σ)
  | .lval y =>
    match valueOf σ y with
    | some v => (build mem (T.copy v n), σ)
    | none => (.error .badAlloc, σ)
  | .rval y =>
    match valueOf σ y with
    | some v => if mem then ((T.move v n).1, setVal σ y (some (T.move v n).2)) else (.error .badAlloc, σ)
    | none => (.error .badAlloc, σ)

/-- A new `T` is built by a value constructor. -/
def buildCtor (σ : Boxes L A V) : Ctor L X → Except Exn V × Boxes L A V
  | .default => (build mem (T.make .none n), σ)
  | .from u => buildFrom T mem n σ u
  | .inPlace us => (build mem (T.make (.pack us) n), σ)
  | .inPlaceOne u => buildFrom T mem n σ u
  | .ilist l us => (build mem (T.make (.ilist l us) n), σ)

/-- Object `x` with allocator `a` comes to hold the outcome of a construction, or nothing changes. -/
def store (σ : Boxes L A V) (o : Out L A V) (x : L) (a : A) : Except Exn V → Result L A V
  | .ok v => .ret o (put σ x ⟨a, some v⟩)
  | .error e => .threw e σ

/-- Exceptions do not leave a function declared noexcept. -/
def noexceptIf (b : Bool) : Result L A V → Result L A V
  | .threw e σ => if b then .terminated else .threw e σ
  | r => r

/-- Allocator-extended copy construction. -/
def copyA (σ : Boxes L A V) (x : L) (a : A) (y : L) : Result L A V :=
  match σ y with
  | none => .illegal
  | some b =>
    match b.val with
    | none => .ret .unit (put σ x ⟨a, none⟩)
    | some v => store σ .unit x a (build mem (T.copy v n))

/-- Allocator-extended move construction: steals if the allocators are interchangeable, else moves the
value into new storage. -/
def moveA (σ : Boxes L A V) (x : L) (a : A) (y : L) : Result L A V :=
  match σ y with
  | none => .illegal
  | some b =>
    if tr.alwaysEqual || tr.eq a b.alloc then
      .ret .unit (put (put σ y ⟨b.alloc, none⟩) x ⟨a, b.val⟩)
    else match b.val with
      | none => .ret .unit (put σ x ⟨a, none⟩)
      | some v =>
        if mem then store (setVal σ y (some (T.move v n).2)) .unit x a (T.move v n).1
        else .threw .badAlloc σ

/-- Copy assignment. -/
def assignCopy (σ : Boxes L A V) (x y : L) : Result L A V :=
  if x = y then .ret (.self x) σ
  else match σ x, σ y with
    | some bx, some bcy =>
      let a := if tr.pocca then bcy.alloc else bx.alloc
      match bx.val, bcy.val with
      | _, none => .ret (.self x) (put σ x ⟨a, none⟩)
      | some d, some v =>
        if T.assignable && tr.eq bx.alloc bcy.alloc then
          match T.copyAssign d v n with
          | (none, d') => .ret (.self x) (put σ x ⟨a, some d'⟩)
          | (some e, d') => .threw e (put σ x ⟨bx.alloc, some d'⟩)
        else store σ (.self x) x a (build mem (T.copy v n))
      | none, some v => store σ (.self x) x a (build mem (T.copy v n))
    | _, _ => .illegal

/-- Move assignment. -/
def assignMove (σ : Boxes L A V) (x y : L) : Result L A V :=
  if x = y then .ret (.self x) σ
  else match σ x, σ y with
    | some bx, some bcy =>
      let a := if tr.pocma then bcy.alloc else bx.alloc
      match bcy.val with
      | none => .ret (.self x) (put σ x ⟨a, none⟩)
      | some v =>
        if tr.eq bx.alloc bcy.alloc then
          .ret (.self x) (put (put σ y ⟨bcy.alloc, none⟩) x ⟨a, some v⟩)
        else if mem then
          noexceptIf (tr.pocma || tr.alwaysEqual)
            (store (setVal σ y (some (T.move v n).2)) (.self x) x a (T.move v n).1)
        else noexceptIf (tr.pocma || tr.alwaysEqual) (.threw .badAlloc σ)
    | _, _ => .illegal

/-- In-place assignment to the value `d` of `x`. -/
def assignValue (σ : Boxes L A V) (x : L) (d : V) : Src L X → Result L A V
  | .arg u =>
    match T.assignArg d u n with
    | (none, d') => .ret (.self x) (setVal σ x (some d'))
    | (some e, d') => .threw e (setVal σ x (some d'))
  | .lval y =>
    match valueOf σ y with
    | none => .illegal
    | some v =>
      match T.copyAssign d v n with
      | (none, d') => .ret (.self x) (setVal σ x (some d'))
      | (some e, d') => .threw e (setVal σ x (some d'))
  | .rval y =>
    match valueOf σ y with
    | none => .illegal
    | some v =>
      match T.moveAssign d v n with
      | (none, d', v') => .ret (.self x) (setVal (setVal σ y (some v')) x (some d'))
      | (some e, d', v') => .threw e (setVal (setVal σ y (some v')) x (some d'))

/-- Perfect-forwarding assignment. -/
def assignFrom (σ : Boxes L A V) (x : L) (u : Src L X) : Result L A V :=
  match σ x with
  | none => .illegal
  | some b =>
    match b.val with
    | none => store (buildFrom T mem n σ u).2 (.self x) x b.alloc (buildFrom T mem n σ u).1
    | some d => assignValue T n σ x d u

/-- Swap. -/
def swap (σ : Boxes L A V) (x y : L) : Result L A V :=
  match σ x, σ y with
  | some bx, some bcy =>
    if tr.pocs then .ret .unit (put (put σ x bcy) y bx)
    else .ret .unit (put (put σ x ⟨bx.alloc, bcy.val⟩) y ⟨bcy.alloc, bx.val⟩)
  | _, _ => .illegal

/-- The specification of every call. -/
def step (σ : Boxes L A V) : Op L A V X → Result L A V
  | .make x a c =>
    store (buildCtor T mem n σ c).2 .unit x (a.getD tr.dflt) (buildCtor T mem n σ c).1
  | .copy x y =>
    match σ y with
    | none => .illegal
    | some b => copyA T mem n σ x (tr.socc b.alloc) y
  | .copyA x a y => copyA T mem n σ x a y
  | .move x y =>
    match σ y with
    | none => .illegal
    | some b => noexceptIf tr.alwaysEqual (moveA tr T mem n σ x b.alloc y)
  | .moveA x a y => noexceptIf tr.alwaysEqual (moveA tr T mem n σ x a y)
  | .destroy x => .ret .unit (drop σ x)
  | .assignCopy x y => assignCopy tr T mem n σ x y
  | .assignMove x y => assignMove tr T mem n σ x y
  | .assignFrom x u => assignFrom T mem n σ x u
  | .deref x => match valueOf σ x with
    | some v => .ret (.value v) σ
    | none => .illegal
  | .arrow x => match valueOf σ x with
    | some v => .ret (.value v) σ
    | none => .illegal
  | .modify x f => match valueOf σ x with
    | some v => .ret .unit (setVal σ x (some (f v)))
    | none => .illegal
  | .valueless x => match σ x with
    | some b => .ret (.bool b.val.isNone) σ
    | none => .illegal
  | .getAllocator x => match σ x with
    | some b => .ret (.alloc b.alloc) σ
    | none => .illegal
  | .swap x y => swap tr σ x y
  | .friendSwap x y => swap tr σ x y

end
end Verif.Spec
