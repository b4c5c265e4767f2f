import Verif.Composite
import Verif.Compare

/-!
# `std::vector` of `indirect` or `polymorphic`

`std::vector<xyz::indirect<int>>` (indirect_test.cc:896-904), `std::vector<xyz::polymorphic<Base>>`
(polymorphic_test.cc:697-706), `std::pmr::vector<PolymorphicBase>` (polymorphic_test.cc:768-791), `auto vv = v`
(benchmarks/indirect_benchmark.cc:186-197).

Modelled are the functions of `std::vector` that such programs use, as [vector] and [container.reqmts] describe them,
with the choices of libstdc++ where these leave a choice.  What they do with elements are the unchanged functions of the
model of the headers.  On reallocation elements are moved if their type is nothrow move constructible, otherwise copied
(`std::move_if_noexcept`).
Simplifications: the storage of vectors is not part of the machine: each vector has a buffer, also if it is empty, and the
operations that get a new one are told which, its capacity, and whether its allocation throws; the allocator of the
vector does not propagate and is always equal, or the same for all vectors (`std::pmr::vector` with one resource).
-/

set_option autoImplicit false

namespace Verif

namespace Holder
section
variable {L A R V X Ty : Type} [DecidableEq L] [DecidableEq R] [DecidableEq Ty]

/-- Elements of type `indirect<T, A>` in a vector that passes its allocator `α` on to elements (`std::pmr::vector`:
uses-allocator construction [allocator.uses.construction], `indirect` has an `allocator_type`, indirect.h:88, and
constructors with `std::allocator_arg`, indirect.h:145-212). -/
def indirectIn (α : A) (tr : ATraits A R) (T : TSpec V X) : Holder L (St L A R (Obj V)) V (TArgs X) (V → V) where
  make x i e := ofCall (Indirect.call tr (plain T) (.make x (some α) (ctorOf i)) e)
  copy x y e := ofCall (Indirect.call tr (plain T) (.copyA x α y) e)
  move x y e := ofCall (Indirect.call tr (plain T) (.moveA x α y) e)
  assignCopy x y e := ofCall (Indirect.call tr (plain T) (.assignCopy x y) e)
  assignMove x y e := ofCall (Indirect.call tr (plain T) (.assignMove x y) e)
  destroy x e := ofCall (Indirect.call tr (plain T) (.destroy x) e)
  modify x f e := ofCall (Indirect.call tr (plain T) (.modify x f) e)
  app f v := f v
  nothrowMove := tr.alwaysEqual

/-- The same for `polymorphic<T, A>` (polymorphic.h:148, 203-268). -/
def polymorphicIn (α : A) (tr : ATraits A R) (P : PSpec Ty V X) :
    Holder L (St L A R (PBody Ty V)) (Ty × V) (Option Ty × TArgs X) (Ty → V → V) where
  make x i e := ofCall (Polymorphic.call tr (plainP P) (.make x (some α) (pctorOf i.1 i.2)) e)
  copy x y e := ofCall (Polymorphic.call tr (plainP P) (.copyA x α y) e)
  move x y e := ofCall (Polymorphic.call tr (plainP P) (.moveA x α y) e)
  assignCopy x y e := ofCall (Polymorphic.call tr (plainP P) (.assignCopy x y) e)
  assignMove x y e := ofCall (Polymorphic.call tr (plainP P) (.assignMove x y) e)
  destroy x e := ofCall (Polymorphic.call tr (plainP P) (.destroy x) e)
  modify x f e := ofCall (Polymorphic.call tr (plainP P) (.modify x f) e)
  app f w := (w.1, f w.1 w.2)
  nothrowMove := tr.alwaysEqual

end
end Holder

namespace Vector

/-- Where an element type's object can live: in slot `i` of buffer `b`, or as a variable. -/
inductive Cell (C : Type) where
  | elem (b i : Nat)
  | var (y : C)
  deriving DecidableEq

/-- A vector: its buffer, `size()` and `capacity()`. -/
structure Vec where
  buf : Nat
  size : Nat
  cap : Nat
  deriving DecidableEq

/-- Machine state: the state of the elements' machine and the vectors. -/
abbrev VecS (C S : Type) := S × (C → Option Vec)

/-- What the allocator of a vector does if it is asked for storage: throw, or return a buffer.  `cap` is the capacity if that
is more than what is needed. -/
structure Buf where
  buf : Nat
  cap : Nat
  fails : Bool

/-- Expressions of the element type in client code: `y`, or `x[i]`. -/
inductive Ref (C : Type) where
  | var (y : C)
  | at (x : C) (i : Nat)
  deriving DecidableEq

/-- The argument of `emplace_back(args…)`, `push_back(const U&)`, `push_back(U&&)`. -/
inductive Arg (C I : Type) where
  | make (i : I)
  | copy (r : Ref C)
  | move (r : Ref C)

section
variable {C S W I J F : Type} [DecidableEq C]

/-- The object that an expression refers to ([vector.data], operator[]). -/
def cell (vs : C → Option Vec) : Ref C → Option (Cell C)
  | .var y => some (.var y)
  | .at x i => (vs x).map fun v => .elem v.buf i

variable (H : Holder (Cell C) S W I F)

/-- `allocator_traits::construct(a, p, arg)`: an element begins to live at `l`. -/
def construct (vs : C → Option Vec) (l : Cell C) (a : Arg C I) (e : Env) : M S Unit :=
  match a with
  | .make i => H.make l i e
  | .copy r =>
    match cell vs r with
    | some q => H.copy l q e
    | none => M.undef .deadHandle
  | .move r =>
    match cell vs r with
    | some q => H.move l q e
    | none => M.undef .deadHandle

/-- `std::destroy(first, last)`: elements `0, …, n-1` of a buffer, in order. -/
def clear (b : Nat) (es : Nat → Env) (n : Nat) : M S Unit := Composite.each (fun i => H.destroy (.elem b i) (es i)) n

/-- `std::uninitialized_copy`: elements `i, …, i+n-1` of buffer `b` are constructed from those of `a`; if one throws, those
already constructed are destroyed. -/
def copyRange (a b i : Nat) (es es' : Nat → Env) (n : Nat) : M S Unit :=
  Composite.build (fun k => H.copy (.elem b (i + k)) (.elem a (i + k)) (es k))
    (fun k => Composite.each (fun j => H.destroy (.elem b (i + j)) (es' j)) k) n

/-- `std::__uninitialized_move_if_noexcept_a`: elements of a new buffer `b` from those of `a`. -/
def relocate (a b : Nat) (es es' : Nat → Env) (n : Nat) : M S Unit :=
  if H.nothrowMove then Composite.each (fun k => H.move (.elem b k) (.elem a k) (es k)) n
  else copyRange H a b 0 es es' n

/-- `push_back`, `emplace_back` ([vector.modifiers]): if there is room, the element is constructed at the end.  Otherwise
the new element is constructed in a new buffer, then the others are relocated; if that throws, all is undone. -/
def push (vs : C → Option Vec) (v : Vec) (a : Arg C I) (B : Buf) (es : Nat → Nat → Env) : M S Unit :=
  if v.size < v.cap then construct H vs (.elem v.buf v.size) a (es 0 0)
  else if B.fails then M.throwE .badAlloc
  else do
    construct H vs (.elem B.buf v.size) a (es 0 0)
    M.onThrow (relocate H v.buf B.buf (es 1) (es 2) v.size) (H.destroy (.elem B.buf v.size) (es 0 1))
    clear H v.buf (es 3) v.size

/-- The vector after `push`. -/
def Vec.push (v : Vec) (B : Buf) : Vec :=
  if v.size < v.cap then { v with size := v.size + 1 } else ⟨B.buf, v.size + 1, max B.cap (v.size + 1)⟩

/-- `reserve(n)` ([vector.capacity]). -/
def reserve (v : Vec) (n : Nat) (B : Buf) (es : Nat → Nat → Env) : M S Unit :=
  if n ≤ v.cap then pure ()
  else if B.fails then M.throwE .badAlloc
  else do
    relocate H v.buf B.buf (es 1) (es 2) v.size
    clear H v.buf (es 3) v.size

/-- The vector after `reserve`. -/
def Vec.reserve (v : Vec) (n : Nat) (B : Buf) : Vec := if n ≤ v.cap then v else ⟨B.buf, v.size, max B.cap n⟩

/-- `erase(begin() + i)` ([vector.modifiers]): the following elements are move assigned down, the last is destroyed. -/
def erase (v : Vec) (i : Nat) (es : Nat → Nat → Env) : M S Unit := do
  Composite.each (fun k => H.assignMove (.elem v.buf (i + k)) (.elem v.buf (i + k + 1)) (es 0 k)) (v.size - 1 - i)
  H.destroy (.elem v.buf (v.size - 1)) (es 1 0)

/-- `vector(const vector&)`. -/
def copyCtor (w : Vec) (B : Buf) (es : Nat → Nat → Env) : M S Unit :=
  if B.fails then M.throwE .badAlloc else copyRange H w.buf B.buf 0 (es 1) (es 2) w.size

/-- `operator=(const vector&)`, not self-assignment: a new buffer if the capacity does not suffice; otherwise elements are
assigned, and the rest is destroyed or constructed. -/
def assignCopy (v w : Vec) (B : Buf) (es : Nat → Nat → Env) : M S Unit :=
  if v.cap < w.size then
    if B.fails then M.throwE .badAlloc
    else do
      copyRange H w.buf B.buf 0 (es 1) (es 2) w.size
      clear H v.buf (es 3) v.size
  else if w.size ≤ v.size then do
    Composite.each (fun k => H.assignCopy (.elem v.buf k) (.elem w.buf k) (es 0 k)) w.size
    Composite.each (fun k => H.destroy (.elem v.buf (w.size + k)) (es 3 k)) (v.size - w.size)
  else do
    Composite.each (fun k => H.assignCopy (.elem v.buf k) (.elem w.buf k) (es 0 k)) v.size
    copyRange H w.buf v.buf v.size (es 1) (es 2) (w.size - v.size)

/-- The vector after `operator=(const vector&)`. -/
def Vec.assign (v w : Vec) (B : Buf) : Vec :=
  if v.cap < w.size then ⟨B.buf, w.size, max B.cap w.size⟩ else { v with size := w.size }

/-- What programs do with vectors and variables. -/
inductive VecOp (C I J F : Type) where
  /-- a variable of the element type: `indirect<T> y(args…)` -/
  | make (y : C) (j : J)
  | destroyVar (y : C)
  /-- `vector<indirect<T>> x` -/
  | empty (x : C)
  | copy (x y : C)
  | move (x y : C)
  | destroy (x : C)
  | push (x : C) (a : Arg C I)
  | pop (x : C)
  | reserve (x : C) (n : Nat)
  | erase (x : C) (i : Nat)
  | assignCopy (x y : C)
  | assignMove (x y : C)
  | swap (x y : C)
  /-- `r->f()` -/
  | modify (r : Ref C) (f : F)

/-- The part of an operation that concerns elements.  `mk`: the constructors with which client code makes variables, by
arguments `J`; these are not the vector's business, and may use other allocators. -/
def body (mk : C → J → Env → M S Unit) (vs : C → Option Vec) (B : Buf) (es : Nat → Nat → Env) : VecOp C I J F → M S Unit
  | .make y j => mk y j (es 0 0)
  | .destroyVar y => H.destroy (.var y) (es 0 0)
  | .empty _ => pure ()
  | .copy _ y =>
    match vs y with
    | some w => copyCtor H w B es
    | none => M.undef .deadHandle
  | .move _ _ => pure ()
  | .destroy x =>
    match vs x with
    | some v => clear H v.buf (es 3) v.size
    | none => M.undef .deadHandle
  | .push x a =>
    match vs x with
    | some v => push H vs v a B es
    | none => M.undef .deadHandle
  | .pop x =>
    match vs x with
    | some v => H.destroy (.elem v.buf (v.size - 1)) (es 0 0)
    | none => M.undef .deadHandle
  | .reserve x n =>
    match vs x with
    | some v => reserve H v n B es
    | none => M.undef .deadHandle
  | .erase x i =>
    match vs x with
    | some v => erase H v i es
    | none => M.undef .deadHandle
  | .assignCopy x y =>
    match vs x, vs y with
    | some v, some w => if x = y then pure () else assignCopy H v w B es
    | _, _ => M.undef .deadHandle
  | .assignMove x _ =>
    match vs x with
    | some v => clear H v.buf (es 3) v.size
    | none => M.undef .deadHandle
  | .swap _ _ => pure ()
  | .modify r f =>
    match cell vs r with
    | some l => H.modify l f (es 0 0)
    | none => M.undef .deadHandle

/-- The part of an operation that concerns vectors: their buffers, sizes and capacities if it returns.  Moves and swaps
exchange buffers. -/
def after (vs : C → Option Vec) (B : Buf) : VecOp C I J F → (C → Option Vec)
  | .make _ _ => vs
  | .destroyVar _ => vs
  | .empty x => upd vs x (some ⟨B.buf, 0, 0⟩)
  | .copy x y => upd vs x ((vs y).map fun w => ⟨B.buf, w.size, max B.cap w.size⟩)
  | .move x y => upd (upd vs x (vs y)) y (some ⟨B.buf, 0, 0⟩)
  | .destroy x => upd vs x none
  | .push x _ => upd vs x ((vs x).map (·.push B))
  | .pop x => upd vs x ((vs x).map fun v => { v with size := v.size - 1 })
  | .reserve x n => upd vs x ((vs x).map (·.reserve n B))
  | .erase x _ => upd vs x ((vs x).map fun v => { v with size := v.size - 1 })
  | .assignCopy x y =>
    match vs x, vs y with
    | some v, some w => if x = y then vs else upd vs x (some (v.assign w B))
    | _, _ => vs
  | .assignMove x y => upd (upd vs x (vs y)) y (some ⟨B.buf, 0, 0⟩)
  | .swap x y => upd (upd vs x (vs y)) y (vs x)
  | .modify _ _ => vs

/-- One operation.  If it throws, every vector has its buffer, size and capacity as before. -/
def call (mk : C → J → Env → M S Unit) (o : VecOp C I J F) (B : Buf) (es : Nat → Nat → Env) : M (VecS C S) Unit := fun s =>
  match body H mk s.2 B es o s.1 with
  | .ok _ t => .ok () (t, after s.2 B o)
  | .threw e t => .threw e (t, s.2)
  | .terminated => .terminated
  | .ub u => .ub u
  | .diverged => .diverged

end
end Vector
end Verif
