import Verif.Maps
import Verif.Spec.Vector

/-!
# Specification of maps with mapped values of type `indirect` or `polymorphic`

A map as a value: a partial function from keys to indirects (allocator, and owned value unless it is valueless).
-/

set_option autoImplicit false

namespace Verif.Spec
open Verif

/-- The maps and variables of a program, as values. -/
structure KState (C K A W : Type) where
  maps : C → Option (K → Option (Box A W))
  vars : C → Option (Box A W)

section
variable {C K S A W I J F : Type} [DecidableEq C] [DecidableEq K]

/-- What an expression refers to. -/
def KState.get (σ : KState C K A W) : Maps.Ref C K → Option (Box A W)
  | .var y => σ.vars y
  | .at x k => (σ.maps x).bind fun m => m k

/-- The map `x` becomes `m`. -/
def KState.setMap (σ : KState C K A W) (x : C) (m : Option (K → Option (Box A W))) : KState C K A W :=
  { σ with maps := fun z => if z = x then m else σ.maps z }

/-- The variable `y` becomes `b`. -/
def KState.setVar (σ : KState C K A W) (y : C) (b : Option (Box A W)) : KState C K A W :=
  { σ with vars := fun z => if z = y then b else σ.vars z }

/-- The element of the map `x` with key `k` becomes `b`, or there is none. -/
def KState.setAt (σ : KState C K A W) (x : C) (k : K) (b : Option (Box A W)) : KState C K A W :=
  { σ with maps := fun z => if z = x then (σ.maps x).map fun m k' => if k' = k then b else m k' else σ.maps z }

/-- What the expression refers to becomes `b`. -/
def KState.set (σ : KState C K A W) (r : Maps.Ref C K) (b : Box A W) : KState C K A W :=
  match r with
  | .var y => σ.setVar y (some b)
  | .at x k => σ.setAt x k (some b)

/-- The values of maps and variables, by the objects of the mapped type and the nodes of the maps. -/
def kview (β : Boxes (Maps.Cell C) A W) (g : C → Option (Maps.Map K)) : KState C K A W where
  maps x := (g x).map fun m k => (m.find k).bind fun n => β (.node n)
  vars y := β (.var y)

/-- The values of a machine state. -/
def kstate (abs : S → Boxes (Maps.Cell C) A W) (s : Maps.MS C K S) : KState C K A W := kview (abs s.mach) s.maps

/-- A mapped value `b` from arguments, and the maps and variables afterwards (without the new element). -/
def KArgMade (ρ : Rules A W) (σ : KState C K A W) (b : Box A W) (σ' : KState C K A W) : Maps.Arg C K I → Prop
  | .make _ => ρ.Make b ∧ σ' = σ
  | .copy r => ∃ c, σ.get r = some c ∧ ρ.Copy c b ∧ σ' = σ
  | .move r => ∃ c q, σ.get r = some c ∧ ρ.Move c b q ∧ σ' = σ.set r q

/-- An exception from the construction of a mapped value: only the source of a move may have changed. -/
def KArgThrew (ρ : Rules A W) (σ σ' : KState C K A W) : Maps.Arg C K I → Prop
  | .make _ => σ' = σ
  | .copy _ => σ' = σ
  | .move r => σ' = σ ∨ ∃ c q, σ.get r = some c ∧ ρ.MoveThrew c q ∧ σ' = σ.set r q

/-- The arguments exist. -/
def KArgOk (σ : KState C K A W) : Maps.Arg C K I → Prop
  | .make _ => True
  | .copy r => ∃ c, σ.get r = some c
  | .move r => ∃ c, σ.get r = some c

/-- `m'` is a copy of `m`: it has the same keys, and a copy of each mapped value. -/
def MapCopy (ρ : Rules A W) (m m' : K → Option (Box A W)) : Prop := ∀ k,
  match m k with
  | none => m' k = none
  | some b => ∃ b', ρ.Copy b b' ∧ m' k = some b'

/-- The map without elements. -/
def noElems : K → Option (Box A W) := fun _ => none

/-- `x.merge(y)`: what `x` becomes. -/
def merged (m o : K → Option (Box A W)) : K → Option (Box A W) := fun k =>
  match m k with
  | some b => some b
  | none => o k

/-- `x.merge(y)`: what is left in `y`. -/
def unmerged (m o : K → Option (Box A W)) : K → Option (Box A W) := fun k =>
  match m k with
  | some _ => o k
  | none => none

/-- Preconditions. -/
def KLegal (σ : KState C K A W) : Maps.MapOp C K I J F → Prop
  | .make y _ => σ.vars y = none
  | .destroyVar y => ∃ b, σ.vars y = some b
  | .empty x => σ.maps x = none
  | .copy x y => σ.maps x = none ∧ ∃ m, σ.maps y = some m
  | .move x y => σ.maps x = none ∧ ∃ m, σ.maps y = some m
  | .destroy x => ∃ m, σ.maps x = some m
  | .emplace x _ a => (∃ m, σ.maps x = some m) ∧ KArgOk σ a
  | .tryEmplace x _ a => (∃ m, σ.maps x = some m) ∧ KArgOk σ a
  | .insertOrAssign x k _ r => r ≠ .at x k ∧ (∃ m, σ.maps x = some m) ∧ ∃ c, σ.get r = some c
  | .erase x _ => ∃ m, σ.maps x = some m
  | .clear x => ∃ m, σ.maps x = some m
  | .assignCopy x y => (∃ m, σ.maps x = some m) ∧ ∃ m, σ.maps y = some m
  | .assignMove x y => x ≠ y ∧ (∃ m, σ.maps x = some m) ∧ ∃ m, σ.maps y = some m
  | .swap x y => (∃ m, σ.maps x = some m) ∧ ∃ m, σ.maps y = some m
  | .merge x y => (∃ m, σ.maps x = some m) ∧ ∃ m, σ.maps y = some m
  | .take y _ x _ => σ.vars y = none ∧ ∃ m, σ.maps x = some m
  | .modify r _ => ∃ a v, σ.get r = some ⟨a, some v⟩

end
end Verif.Spec

namespace Verif.Maps
open Spec
section
variable {C K S A W I J F : Type} [DecidableEq C] [DecidableEq K]

/-- States reachable from `init`, without maps, by legal operations, in any environment, including after exceptions. -/
inductive Reach (H : Holder (Cell C) S W I F) (H' : Holder (Cell C) S W J F) (abs : S → Boxes (Cell C) A W) (init : S) :
    MS C K S → Prop
  | init : Reach H H' abs init ⟨init, fun _ => none, 0⟩
  | ret {s s' : MS C K S} (o : MapOp C K I J F) (c : Ctx) : Reach H H' abs init s → KLegal (kstate abs s) o →
      call H H' o c s = .ok () s' → Reach H H' abs init s'
  | threw {s s' : MS C K S} (o : MapOp C K I J F) (c : Ctx) (e : Exn) : Reach H H' abs init s → KLegal (kstate abs s) o →
      call H H' o c s = .threw e s' → Reach H H' abs init s'

end
end Verif.Maps

namespace Verif.Spec
open Verif
section
variable {C K I J F : Type} [DecidableEq C] [DecidableEq K]

/-- The expression is the source of a move in these arguments. -/
def MovesFrom (r : Maps.Ref C K) : Maps.Arg C K I → Prop
  | .move r' => r' = r
  | _ => False

/-- Operations that may change what `r` refers to: they name the variable, the element, or its map as a whole.  Everything
else must leave it as it is. -/
def Concerns (r : Maps.Ref C K) : Maps.MapOp C K I J F → Prop
  | .make y _ => r = .var y
  | .destroyVar y => r = .var y
  | .empty x => ∃ k, r = .at x k
  | .copy x _ => ∃ k, r = .at x k
  | .move x y => ∃ k, r = .at x k ∨ r = .at y k
  | .destroy x => ∃ k, r = .at x k
  | .emplace x k a => r = .at x k ∨ MovesFrom r a
  | .tryEmplace x k a => r = .at x k ∨ MovesFrom r a
  | .insertOrAssign x k mv r' => r = .at x k ∨ (mv = true ∧ r = r')
  | .erase x k => r = .at x k
  | .clear x => ∃ k, r = .at x k
  | .assignCopy x _ => ∃ k, r = .at x k
  | .assignMove x y => ∃ k, r = .at x k ∨ r = .at y k
  | .swap x y => ∃ k, r = .at x k ∨ r = .at y k
  | .merge x y => ∃ k, r = .at x k ∨ r = .at y k
  | .take y mv x k => r = .var y ∨ (mv = true ∧ r = .at x k)
  | .modify r' _ => r = r'

end
end Verif.Spec
