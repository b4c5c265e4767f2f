import Verif.Benchmark
import Verif.Spec.Run
import Verif.Spec.Table
import Verif.Spec.PAbs
import Verif.Spec.Trace

/-!
# What the benchmarks compare

The statement on `indirect` (and the calls of one iteration) that each statement on pointers is measured against.
-/

set_option autoImplicit false

namespace Verif.Benchmark
open Verif

section
variable {L V X : Type}

/-- The same statement with `xyz::indirect<A>`: `xyz::indirect<A>(std::in_place, i)`, the copy, the end of the lifetime,
and `p->value()`; indirect_benchmark.cc:178-225. -/
def toOp : Stmt L X → Op L Unit V X
  | .make x u => .make x none (.inPlace [u])
  | .clone x y => .copy x y
  | .drop x => .destroy x
  | .value x => .arrow x

/-- `x` points to an `A`. -/
def Points (s : St L Unit Unit (Obj V)) (x : L) : Prop := ∃ v, Indirect.abs s x = some ⟨(), some v⟩

/-- A pointer is initialised once, and only pointers to an `A` are cloned, deleted or read. -/
def Legal (s : St L Unit Unit (Obj V)) : Stmt L X → Prop
  | .make x _ => Spec.Dead (Indirect.abs s) x
  | .clone x y => Spec.Dead (Indirect.abs s) x ∧ Points s y
  | .drop x => Points s x
  | .value x => Points s x

end

/-- polymorphic_benchmark.cc: `new Derived(i)` for the class `ty`, with a virtual `clone` and a virtual destructor, makes,
copies and destroys an object of a dynamic type; an object is its dynamic type and its value (`PSpec.owned`). -/
def ownedStmt {L Ty X : Type} : Stmt L (Ty × X) → Stmt L (Ty × TArgs X)
  | .make x u => .make x (u.1, .pack [u.2])
  | .clone x y => .clone x y
  | .drop x => .drop x
  | .value x => .value x

/-- The same statement with `xyz::polymorphic<PolyBase>`; polymorphic_benchmark.cc:271-337. -/
def toPOp {L Ty V X : Type} : Stmt L (Ty × X) → POp L Unit Ty V X
  | .make x u => .make x none (.inPlace u.1 [u.2])
  | .clone x y => .copy x y
  | .drop x => .destroy x
  | .value x => .arrow x

/-- The names of the elements of two vectors: `(false, i)` is `v[i]` and `(true, i)` is `vv[i]`. -/
abbrev Elem := Bool × Nat

/-- One iteration of a copy benchmark: `vv[i]` becomes a copy of `v[i]` for each `i` of `is`, and then the elements of
`vv` are destroyed in the order `ds`.  Each call comes with its environment. -/
def iteration {C : Type} (copy : Elem → Elem → C) (destroy : Elem → C) (is ds : List (Nat × Env)) : List (C × Env) :=
  is.map (fun i => (copy (true, i.1) (false, i.1), i.2)) ++ ds.map (fun i => (destroy (true, i.1), i.2))

/-- All calls return, the last one in state `s'`. -/
def Completes {C S O : Type} (call : C → Env → S → Res S O) : List (C × Env) → S → S → Prop
  | [], s, s' => s' = s
  | c :: cs, s, s' => ∃ out t, call c.1 c.2 s = .ok out t ∧ Completes call cs t s'

/-- Between the two traces there are `a` allocations, `c` constructions or assignments, `d` destructions and `f`
deallocations. -/
def Costs {R : Type} (t t' : List (Ev R)) (a c d f : Nat) : Prop :=
  Spec.allocs t' = Spec.allocs t + a ∧ Spec.tops t' = Spec.tops t + c ∧
  Spec.destroys t' = Spec.destroys t + d ∧ Spec.deallocs t' = Spec.deallocs t + f

/-- `v` has `n` elements that hold a value, and none of the first `n` elements of `vv` exists. -/
def Ready {A W : Type} (n : Nat) (σ : Spec.Boxes Elem A W) : Prop :=
  ∀ i, i < n → (∃ a w, σ (false, i) = some ⟨a, some w⟩) ∧ Spec.Dead σ (true, i)

/-- The elements `0`, …, `n - 1` in some order. -/
def Covers (n : Nat) (is : List (Nat × Env)) : Prop := (is.map Prod.fst).Perm (List.range n)

end Verif.Benchmark
