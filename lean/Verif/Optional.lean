import Verif.Composite
import Verif.Compare
import Verif.Containers14

/-!
# `std::optional` of `indirect` or `polymorphic`

`std::optional<xyz::indirect<int>>` (indirect_test.cc:423-429, 887-893), `std::optional<xyz::polymorphic<Base>>`
(polymorphic_test.cc:688-694).

Modelled are the rules of the C++ standard for `std::optional` ([optional.ctor], [optional.dtor], [optional.assign],
[optional.swap], [optional.observe], [optional.mod]).  What they do with the contained object are the unchanged functions
of the model of the headers.
Simplifications: member functions of the contained object run in an environment each; the converting constructors and
assignments from other specialisations of `optional`, the comparison operators and the monadic operations of `optional` are
not modelled.
-/

set_option autoImplicit false

namespace Verif.Optional
open Verif

/-- Where an object of the element type can live: inside an optional, or as a variable. -/
inductive Cell (C : Type) where
  | inside (x : C)
  | var (y : C)
  deriving DecidableEq

section
variable {C S W I F : Type} [DecidableEq C]

/-- Machine state: the state of the elements' machine, and for every optional that is alive whether it contains an
object (`has_value()`). -/
abbrev OS (C S : Type) := S × (C → Option Bool)

def look (x : C) : M (OS C S) (Option Bool) := fun s => .ok (s.2 x) s

def set (x : C) (b : Option Bool) : M (OS C S) Unit := fun s => .ok () (s.1, upd s.2 x b)

/-- `x` is an optional that is alive. -/
def alive (x : C) (k : Bool → M (OS C S) Unit) : M (OS C S) Unit := look x >>= fun
  | some b => k b
  | none => M.undef .deadHandle

/-- The storage of `x` is free. -/
def unborn (x : C) : M (OS C S) Unit := look x >>= fun
  | none => pure ()
  | some _ => M.undef .liveHandle

variable (H : Holder (Cell C) S W I F)

/-- `reset()`, `operator=(nullopt_t)` ([optional.mod], [optional.assign]): a contained object is destroyed. -/
def reset (x : C) (e : Env) : M (OS C S) Unit := alive x fun
  | true => do
    M.fst (H.destroy (.inside x) e)
    set x (some false)
  | false => pure ()

/-- An object begins to live in `x`; if its constructor throws, `x` stays as it is. -/
def fill (x : C) (m : M S Unit) : M (OS C S) Unit := do
  M.fst m
  set x (some true)

/-- `optional(const optional&)` ([optional.ctor]). -/
def copyCtor (x y : C) (e : Env) : M (OS C S) Unit := alive y fun
  | true => fill x (H.copy (.inside x) (.inside y) e)
  | false => set x (some false)

/-- `optional(optional&&)` ([optional.ctor]): the contained object is move constructed; `y` still contains one. -/
def moveCtor (x y : C) (e : Env) : M (OS C S) Unit := alive y fun
  | true => fill x (H.move (.inside x) (.inside y) e)
  | false => set x (some false)

/-- `operator=(const optional&)` ([optional.assign]). -/
def assignCopy (x y : C) (e : Env) : M (OS C S) Unit := alive x fun bx => alive y fun by_ =>
  match bx, by_ with
  | true, true => M.fst (H.assignCopy (.inside x) (.inside y) e)
  | false, true => fill x (H.copy (.inside x) (.inside y) e)
  | _, false => reset H x e

/-- `operator=(optional&&)` ([optional.assign]). -/
def assignMove (x y : C) (e : Env) : M (OS C S) Unit := alive x fun bx => alive y fun by_ =>
  match bx, by_ with
  | true, true => M.fst (H.assignMove (.inside x) (.inside y) e)
  | false, true => fill x (H.move (.inside x) (.inside y) e)
  | _, false => reset H x e

/-- `x = v` for a variable `v` of the element type (`operator=(U&&)`, [optional.assign]). -/
def setCopy (x y : C) (e : Env) : M (OS C S) Unit := alive x fun
  | true => M.fst (H.assignCopy (.inside x) (.var y) e)
  | false => fill x (H.copy (.inside x) (.var y) e)

/-- `x = std::move(v)`. -/
def setMove (x y : C) (e : Env) : M (OS C S) Unit := alive x fun
  | true => M.fst (H.assignMove (.inside x) (.var y) e)
  | false => fill x (H.move (.inside x) (.var y) e)

/-- The object contained in `y` moves to `x`, which is empty ([optional.swap]). -/
def handOver (x y : C) (es : Nat → Env) : M (OS C S) Unit := do
  fill x (H.move (.inside x) (.inside y) (es 0))
  M.fst (H.destroy (.inside y) (es 1))
  set y (some false)

/-- `swap(optional&)` ([optional.swap]): `using std::swap; swap(*x, *y)` if both contain an object, which finds the friend
functions (indirect.h:368-371, polymorphic.h:390-393); `sw` is that function. -/
def swap (sw : Cell C → Cell C → Env → M S Unit) (x y : C) (es : Nat → Env) : M (OS C S) Unit :=
  alive x fun bx => alive y fun by_ =>
    match bx, by_ with
    | true, true => M.fst (sw (.inside x) (.inside y) (es 0))
    | false, true => handOver H x y es
    | true, false => handOver H y x es
    | false, false => pure ()

/-- `value()` of an empty optional: `std::bad_optional_access`.  Any exception will do. -/
def badOptionalAccess : Exn := .user 0

/-- What programs do with optionals, and variables of the element type. -/
inductive OOp (C I F : Type) where
  /-- a variable of the element type: `indirect<T> y(args…)` -/
  | make (y : C) (i : I)
  | destroyVar (y : C)
  /-- `optional()`, `optional(std::nullopt)` -/
  | none (x : C)
  /-- `optional(std::in_place, args…)` -/
  | inPlace (x : C) (i : I)
  /-- `optional(y)`, `optional(std::move(y))` for a variable `y` of the element type -/
  | fromCopy (x y : C)
  | fromMove (x y : C)
  | copy (x y : C)
  | move (x y : C)
  | destroy (x : C)
  /-- `x.reset()`, `x = std::nullopt` -/
  | reset (x : C)
  /-- `x.emplace(args…)` -/
  | emplace (x : C) (i : I)
  | assignCopy (x y : C)
  | assignMove (x y : C)
  /-- `x = y`, `x = std::move(y)` for a variable `y` of the element type -/
  | setCopy (x y : C)
  | setMove (x y : C)
  | swap (x y : C)
  /-- `indirect<T> y(x.value())`, `indirect<T> y(std::move(x).value())` -/
  | takeCopy (y x : C)
  | takeMove (y x : C)
  /-- an operation on the object owned by what `x` contains: `(*x)->f()` -/
  | modify (x : C) (f : F)

/-- One operation. -/
def call (sw : Cell C → Cell C → Env → M S Unit) (o : OOp C I F) (es : Nat → Env) : M (OS C S) Unit :=
  match o with
  | .make y i => M.fst (H.make (.var y) i (es 0))
  | .destroyVar y => M.fst (H.destroy (.var y) (es 0))
  | .none x => do
    unborn x
    set x (some false)
  | .inPlace x i => do
    unborn x
    fill x (H.make (.inside x) i (es 0))
  | .fromCopy x y => do
    unborn x
    fill x (H.copy (.inside x) (.var y) (es 0))
  | .fromMove x y => do
    unborn x
    fill x (H.move (.inside x) (.var y) (es 0))
  | .copy x y => do
    unborn x
    copyCtor H x y (es 0)
  | .move x y => do
    unborn x
    moveCtor H x y (es 0)
  | .destroy x => do
    reset H x (es 0)
    set x Option.none
  | .reset x => reset H x (es 0)
  | .emplace x i => do
    reset H x (es 1)
    fill x (H.make (.inside x) i (es 0))
  | .assignCopy x y => assignCopy H x y (es 0)
  | .assignMove x y => assignMove H x y (es 0)
  | .setCopy x y => setCopy H x y (es 0)
  | .setMove x y => setMove H x y (es 0)
  | .swap x y => swap H sw x y es
  | .takeCopy y x => alive x fun
    | true => M.fst (H.copy (.var y) (.inside x) (es 0))
    | false => M.throwE badOptionalAccess
  | .takeMove y x => alive x fun
    | true => M.fst (H.move (.var y) (.inside x) (es 0))
    | false => M.throwE badOptionalAccess
  | .modify x f => alive x fun
    | true => M.fst (H.modify (.inside x) f (es 0))
    | false => M.undef .deadObject

end

section
variable {L A R V X Ty : Type} [DecidableEq L] [DecidableEq R] [DecidableEq Ty]

/-- `swap(x, y)` of indirect.h (indirect.h:368-371). -/
def swapIndirect (tr : ATraits A R) (T : TSpec V X) (x y : L) (e : Env) : M (St L A R (Obj V)) Unit :=
  Holder.ofCall (Indirect.call tr (plain T) (.friendSwap x y) e)

/-- `swap(x, y)` of indirect_cxx14.h (indirect_cxx14.h:370-373). -/
def swapIndirect14 (tr : ATraits A R) (T : TSpec V X) (x y : L) (e : Env) : M (St L A R (Obj V)) Unit :=
  Holder.ofCall (Indirect14.call tr (plain T) (.friendSwap x y) e)

/-- `swap(x, y)` of polymorphic.h (polymorphic.h:390-393). -/
def swapPolymorphic (tr : ATraits A R) (P : PSpec Ty V X) (x y : L) (e : Env) : M (St L A R (PBody Ty V)) Unit :=
  Holder.ofCall (Polymorphic.call tr (plainP P) (.friendSwap x y) e)

/-- `swap(x, y)` of polymorphic_cxx14.h (polymorphic_cxx14.h:460-463). -/
def swapPolymorphic14 (tr : ATraits A R) (P : PSpec Ty V X) (x y : L) (e : Env) : M (St L A R (PBody Ty V)) Unit :=
  Holder.ofCall (Polymorphic14.call tr (plainP P) (.friendSwap x y) e)

end
end Verif.Optional
