import Verif.Vector
import Verif.Containers14

/-!
# `std::map` and `std::unordered_map` with mapped values of type `indirect` or `polymorphic`

`std::map<int, xyz::indirect<int>>`, `std::unordered_map<int, xyz::indirect<int>>` (indirect_test.cc:906-924),
`std::map<int, xyz::polymorphic<Base>>`, `std::unordered_map<int, xyz::polymorphic<Base>>` (polymorphic_test.cc:707-725).

Modelled are the functions of such maps ([map], [unord.map], [associative.reqmts], [unord.req]), with the choices of
libstdc++ where these leave a choice.  What they do with mapped values are the unchanged functions of the model of the
headers.  Maps have nodes: an element lives in its node until it is erased, and moving, swapping or merging maps moves nodes
from one map to another, without touching elements.
Simplifications: keys are copied, compared and hashed without exceptions, and equivalent keys are equal (`int` in the tests);
the order of elements, buckets and rehashing, which touch no element, are not modelled; the storage of nodes is not part of
the machine: every new node has a number of its own, and its allocation throws if the environment says so; the allocators of
maps do not propagate and are always equal, or the same for all maps.
-/

set_option autoImplicit false

namespace Verif.Maps
open Verif

/-- Where an object of the mapped type can live: in a node, or as a variable. -/
inductive Cell (C : Type) where
  | node (n : Nat)
  | var (y : C)
  deriving DecidableEq

/-- A map: its keys, each once, and their nodes. -/
structure Map (K : Type) where
  keys : List K
  node : K → Nat

/-- Machine state: the state of the elements' machine, the maps, and the number of the next node. -/
structure MS (C K S : Type) where
  mach : S
  maps : C → Option (Map K)
  next : Nat

/-- What an operation finds: the environment of the functions of mapped values, in the order of their calls; which
allocations of nodes fail; whether `emplace` makes its node before it looks for the key (the standard allows both). -/
structure Ctx where
  env : Nat → Env
  fails : Nat → Bool
  eager : Bool

/-- Expressions of the mapped type in client code: `y`, or `x.at(k)`. -/
inductive Ref (C K : Type) where
  | var (y : C)
  | at (x : C) (k : K)
  deriving DecidableEq

/-- The arguments for the mapped value in `emplace(k, …)`, `try_emplace(k, …)`. -/
inductive Arg (C K I : Type) where
  | make (i : I)
  | copy (r : Ref C K)
  | move (r : Ref C K)

section
variable {C K S W I J F : Type} [DecidableEq C] [DecidableEq K]

/-- The node of a key. -/
def Map.find (m : Map K) (k : K) : Option Nat := if k ∈ m.keys then some (m.node k) else none

def Map.empty : Map K := ⟨[], fun _ => 0⟩

def Map.insert (m : Map K) (k : K) (n : Nat) : Map K := ⟨m.keys ++ [k], upd m.node k n⟩

def Map.erase (m : Map K) (k : K) : Map K := { m with keys := m.keys.filter (· ≠ k) }

/-- `x.merge(y)` ([associative.reqmts]): nodes with keys that `x` does not have move from `y` to `x`. -/
def Map.merge (m o : Map K) : Map K :=
  ⟨m.keys ++ o.keys.filter (· ∉ m.keys), fun k => if k ∈ m.keys then m.node k else o.node k⟩

/-- What stays in `y` then. -/
def Map.left (m o : Map K) : Map K := { o with keys := o.keys.filter (· ∈ m.keys) }

/-- A function of the mapped type. -/
def elem (f : M S Unit) : M (MS C K S) Unit := fun s =>
  match f s.mach with
  | .ok _ t => .ok () { s with mach := t }
  | .threw e t => .threw e { s with mach := t }
  | .terminated => .terminated
  | .ub u => .ub u
  | .diverged => .diverged

def setMap (x : C) (m : Option (Map K)) : M (MS C K S) Unit := fun s => .ok () { s with maps := upd s.maps x m }

/-- `x` is a map that is alive. -/
def withMap (x : C) (f : Map K → M (MS C K S) Unit) : M (MS C K S) Unit := fun s =>
  match s.maps x with
  | some m => f m s
  | none => .ub .deadHandle

/-- The storage of `x` is free. -/
def unborn (x : C) : M (MS C K S) Unit := fun s =>
  match s.maps x with
  | some _ => .ub .liveHandle
  | none => .ok () s

/-- Allocation of a node. -/
def allocNode (fails : Bool) (f : Nat → M (MS C K S) Unit) : M (MS C K S) Unit := fun s =>
  if fails then .threw .badAlloc s else f s.next { s with next := s.next + 1 }

/-- The object that an expression refers to; `at` throws `std::out_of_range` if there is none ([map.access]). -/
def withRef (r : Ref C K) (f : Cell C → M (MS C K S) Unit) : M (MS C K S) Unit :=
  match r with
  | .var y => f (.var y)
  | .at x k => withMap x fun m =>
    match m.find k with
    | some n => f (.node n)
    | none => M.throwE (.user 0)

variable (H : Holder (Cell C) S W I F)

/-- Construction of the mapped value in node `n`. -/
def construct (n : Nat) (a : Arg C K I) (e : Env) : M (MS C K S) Unit :=
  match a with
  | .make i => elem (H.make (.node n) i e)
  | .copy r => withRef r fun q => elem (H.copy (.node n) q e)
  | .move r => withRef r fun q => elem (H.move (.node n) q e)

/-- A node for a key that `x` does not have: allocated, constructed, and linked. -/
def insertNew (x : C) (k : K) (a : Arg C K I) (c : Ctx) : M (MS C K S) Unit :=
  allocNode (c.fails 0) fun n => do
    construct H n a (c.env 0)
    withMap x fun m => setMap x (some (m.insert k n))

/-- `try_emplace(k, args…)` ([map.modifiers]): nothing happens if there is an element. -/
def tryEmplace (x : C) (k : K) (a : Arg C K I) (c : Ctx) : M (MS C K S) Unit := withMap x fun m =>
  match m.find k with
  | some _ => pure ()
  | none => insertNew H x k a c

/-- `emplace(k, args…)` ([associative.reqmts]): if there is an element already, the new node may have been made in vain. -/
def emplace (x : C) (k : K) (a : Arg C K I) (c : Ctx) : M (MS C K S) Unit := withMap x fun m =>
  match m.find k with
  | some _ =>
    if c.eager then allocNode (c.fails 0) fun n => do
      construct H n a (c.env 0)
      elem (H.destroy (.node n) (c.env 1))
    else pure ()
  | none => insertNew H x k a c

/-- `insert_or_assign(k, r)`, `insert_or_assign(k, std::move(r))` ([map.modifiers]). -/
def insertOrAssign (x : C) (k : K) (mv : Bool) (r : Ref C K) (c : Ctx) : M (MS C K S) Unit := withMap x fun m =>
  match m.find k with
  | some n => withRef r fun q =>
    elem (if mv then H.assignMove (.node n) q (c.env 0) else H.assignCopy (.node n) q (c.env 0))
  | none => insertNew H x k (if mv then .move r else .copy r) c

/-- `erase(k)`. -/
def erase (x : C) (k : K) (e : Env) : M (MS C K S) Unit := withMap x fun m =>
  match m.find k with
  | some n => do
    elem (H.destroy (.node n) e)
    setMap x (some (m.erase k))
  | none => pure ()

/-- All elements with the given keys are erased, in this order. -/
def eraseAll (x : C) (e : Nat → Env) : List K → M (MS C K S) Unit
  | [] => pure ()
  | k :: ks => do
    erase H x k (e ks.length)
    eraseAll x e ks

/-- `clear()`. -/
def clear (x : C) (e : Nat → Env) : M (MS C K S) Unit := withMap x fun m => eraseAll H x e m.keys

/-- Elements with the given keys of `y` are copied to `x`. -/
def copyAll (x y : C) (env : Nat → Env) (fails : Nat → Bool) : List K → M (MS C K S) Unit
  | [] => pure ()
  | k :: ks => do
    insertNew H x k (.copy (.at y k)) ⟨fun _ => env ks.length, fun _ => fails ks.length, false⟩
    copyAll x y env fails ks

/-- What programs do with maps and variables. -/
inductive MapOp (C K I J F : Type) where
  /-- a variable of the mapped type: `indirect<T> y(args…)` -/
  | make (y : C) (j : J)
  | destroyVar (y : C)
  /-- `map<K, indirect<T>> x` -/
  | empty (x : C)
  | copy (x y : C)
  | move (x y : C)
  | destroy (x : C)
  | emplace (x : C) (k : K) (a : Arg C K I)
  /-- also `x[k]`, which is `x.try_emplace(k)` ([map.access]), with arguments for the default constructor -/
  | tryEmplace (x : C) (k : K) (a : Arg C K I)
  | insertOrAssign (x : C) (k : K) (mv : Bool) (r : Ref C K)
  | erase (x : C) (k : K)
  | clear (x : C)
  | assignCopy (x y : C)
  | assignMove (x y : C)
  | swap (x y : C)
  | merge (x y : C)
  /-- `indirect<T> y(x.at(k))`, `indirect<T> y(std::move(x.at(k)))` -/
  | take (y : C) (mv : Bool) (x : C) (k : K)
  /-- `x.at(k)->f()` -/
  | modify (r : Ref C K) (f : F)

/-- One operation.  `H'`: the functions of the mapped type that client code uses for variables, without the allocator of a
map. -/
def call (H' : Holder (Cell C) S W J F) (o : MapOp C K I J F) (c : Ctx) : M (MS C K S) Unit :=
  match o with
  | .make y j => elem (H'.make (.var y) j (c.env 0))
  | .destroyVar y => elem (H'.destroy (.var y) (c.env 0))
  | .empty x => do
    unborn x
    setMap x (some Map.empty)
  | .copy x y => do
    unborn x
    withMap y fun o => do
      setMap x (some Map.empty)
      M.onThrow (copyAll H x y c.env c.fails o.keys) do
        clear H x c.env
        setMap x none
  | .move x y => do
    unborn x
    withMap y fun o => do
      setMap x (some o)
      setMap y (some Map.empty)
  | .destroy x => do
    clear H x c.env
    setMap x none
  | .emplace x k a => emplace H x k a c
  | .tryEmplace x k a => tryEmplace H x k a c
  | .insertOrAssign x k mv r => insertOrAssign H x k mv r c
  | .erase x k => erase H x k (c.env 0)
  | .clear x => clear H x c.env
  | .assignCopy x y =>
    if x = y then withMap x fun _ => pure ()
    else withMap y fun o => do
      clear H x c.env
      M.onThrow (copyAll H x y c.env c.fails o.keys) (clear H x c.env)
  | .assignMove x y => withMap y fun o => do
    clear H x c.env
    setMap x (some o)
    setMap y (some Map.empty)
  | .swap x y => withMap x fun m => withMap y fun o => do
    setMap x (some o)
    setMap y (some m)
  | .merge x y =>
    if x = y then withMap x fun _ => pure ()
    else withMap x fun m => withMap y fun o => do
      setMap x (some (m.merge o))
      setMap y (some (m.left o))
  | .take y mv x k => withRef (.at x k) fun q =>
    elem (if mv then H'.move (.var y) q (c.env 0) else H'.copy (.var y) q (c.env 0))
  | .modify r f => withRef r fun q => elem (H.modify q f (c.env 0))

end
end Verif.Maps
