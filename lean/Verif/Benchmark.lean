import Verif.Wrapper

/-!
# benchmarks/indirect_benchmark.cc and benchmarks/polymorphic_benchmark.cc

The statements of the benchmarks that do by hand what `indirect` does: with raw pointers and `new`, `clone` and
`delete`, and with `std::unique_ptr`.  Line numbers refer to /repo/benchmarks/indirect_benchmark.cc.  `L` names the
pointer variables and the elements of the vectors and arrays of pointers.  A null element that is about to be assigned
(`vv[i] = ...`, lines 71, 94, 142, 157) is an element that does not exist yet; a raw pointer that has been deleted is not
used again by the benchmarks, and is one that exists no longer.  The storage of the vectors and arrays themselves,
`benchmark::DoNotOptimize`, and the clock are not modelled.

The statements on pointers to `Base` in polymorphic_benchmark.cc (lines 119-269) are the same with a virtual `clone`
(lines 68 and 82) and a virtual destructor (line 52): they are the statements below for an owned type whose values are
pairs of a dynamic type and a value of that type.
-/

set_option autoImplicit false

namespace Verif.Benchmark
open Verif
open Verif.Wrapper (newT deleteT pointee)

/-- The statements. -/
inductive Stmt (L X : Type) where
  /-- `x = new A(u)`, or `x = std::make_unique<A>(u)` -/
  | make (x : L) (u : X)
  /-- `x = y->clone()`, or `x = std::unique_ptr<A>(y->clone())` -/
  | clone (x y : L)
  /-- `delete x`, or the end of the lifetime of the `std::unique_ptr` -/
  | drop (x : L)
  /-- `x->value()` -/
  | value (x : L)
  deriving DecidableEq, Repr

section
variable {L V X : Type} [DecidableEq L]
variable (T : TOps (St L Unit Unit (Obj V)) Unit X)

/-- `A::clone`, line 46: `return new A(*this)`, for `*this` at `q`. -/
def cloneA (q : Addr) : M (St L Unit Unit (Obj V)) Addr := newT fun m => T.copyCtor () m q

/-- The statements on raw pointers: `new A(i)`, lines 52, 64, 88, 110; `clone()`, lines 54, 71, 94; `delete`, lines 56,
58, 76, 81, 98, 103, 121; `p->value()`, lines 48 and 116. -/
def rawStep : Stmt L X → M (St L Unit Unit (Obj V)) (Out L Unit V)
  | .make x u => do
    let p ← newT fun m => T.make () m (.pack [u])
    emplace x ⟨some p, ()⟩
    pure .unit
  | .clone x y => do
    let q ← pointee y
    let p ← cloneA T q
    emplace x ⟨some p, ()⟩
    pure .unit
  | .drop x => do
    let h ← getH x
    deleteT T h.p
    endLife x
    pure .unit
  | .value x => do
    let p ← pointee x
    let v ← readObj p
    pure (.value v)

/-- The statements on `std::unique_ptr`: `std::make_unique<A>(i)`, lines 126, 136, 151, 167, and
`std::unique_ptr<A>(v[i]->clone())`, lines 128, 142, 157, moved into an element that is null; `p->value()`, line 173; the destructor is `noexcept`, and calls the deleter only if the pointer is not null. -/
def uniqueStep : Stmt L X → M (St L Unit Unit (Obj V)) (Out L Unit V)
  | .drop x => do
    M.noexceptIf true do
      let h ← getH x
      match h.p with
      | some p => deleteT T (some p)
      | none => pure ()
      endLife x
    pure .unit
  | o => rawStep T o

/-- One statement on raw pointers in an environment. -/
def rawCall (o : Stmt L X) (e : Env) (s : St L Unit Unit (Obj V)) : Res (St L Unit Unit (Obj V)) (Out L Unit V) :=
  rawStep T o (s.enter e)

/-- One statement on `std::unique_ptr`s in an environment. -/
def uniqueCall (o : Stmt L X) (e : Env) (s : St L Unit Unit (Obj V)) : Res (St L Unit Unit (Obj V)) (Out L Unit V) :=
  uniqueStep T o (s.enter e)

end

/-- `std::accumulate` with the function `add` of the value read through each element (indirect_benchmark.cc:114-116,
171-173 and 219-221, polymorphic_benchmark.cc:195-197, 264-266 and 331-333).  `read` is the expression `p->value()`; it
does not return anything but a value. -/
def accumulate {L A V S N : Type} (read : L → Env → S → Res S (Out L A V)) (add : N → V → N) :
    List (L × Env) → N → S → Res S N
  | [], acc, s => .ok acc s
  | x :: xs, acc, s =>
    match read x.1 x.2 s with
    | .ok (.value v) t => accumulate read add xs (add acc v) t
    | .ok _ t => accumulate read add xs acc t
    | .threw e t => .threw e t
    | .terminated => .terminated
    | .ub u => .ub u
    | .diverged => .diverged

end Verif.Benchmark
