import Verif.Concurrent
import Verif.Spec.Threads

/-!
# What it means that threads do not disturb each other
-/

set_option autoImplicit false

namespace Verif.Spec
open Verif

section
variable {Th L A R B Op Out : Type}

/-- A memory location: an object of type `indirect` or `polymorphic`, or a block of storage. -/
inductive Loc (L : Type) where
  | obj (l : L)
  | block (p : Addr)

/-- The location an access reads or writes. -/
def touches : Act L A R B → Loc L → Prop
  | .getH l, x => x = .obj l
  | .setP l _, x => x = .obj l
  | .setAlloc l _, x => x = .obj l
  | .emplace l _, x => x = .obj l
  | .endLife l, x => x = .obj l
  | .deallocate _ p, x => x = .block p
  | .readBody p, x => x = .block p
  | .writeBody p _, x => x = .block p
  | .begin p _ _, x => x = .block p
  | .allocate _, _ => False
  | .emit _, _ => False
  | .choose, _ => False

/-- The access only reads. -/
def readOnly : Act L A R B → Prop
  | .getH _ => True
  | .readBody _ => True
  | _ => False

/-- The access that a thread makes next. -/
def nextAct (t : Thread L A R B Out) : Option (Act L A R B) :=
  match t.cur with
  | some (.act a _) => some a
  | _ => none

/-- A data race: two threads are about to access the same location, and not both only read it. -/
def Race (c : Conf Th L A R B Out) : Prop :=
  ∃ i j a b x, i ≠ j ∧ nextAct (c.th i) = some a ∧ nextAct (c.th j) = some b ∧ touches a x ∧ touches b x ∧
    ¬ (readOnly a ∧ readOnly b)

/-- A client alone, on plain values: starting with the objects `σ`, it has seen `log` of its calls, and the objects are now
as the second index says.  `next log` is the call that it makes next when it has seen `log`.  `step mem n` is what a call does
if storage is available (`mem`) or not, and the operations of the owned type end as `n` says. -/
inductive Alone {V N : Type} (step : Bool → N → Boxes L A V → Op → Result L A V)
    (next : List (Seen (Verif.Out L A V)) → Option Op) (σ : Boxes L A V) :
    List (Seen (Verif.Out L A V)) → Boxes L A V → Prop
  | start : Alone step next σ [] σ
  | ret {log : List (Seen (Verif.Out L A V))} {τ τ' : Boxes L A V} {out : Verif.Out L A V} (o : Op) (mem : Bool) (n : N)
      (h : Alone step next σ log τ) (hn : next log = some o) (hc : step mem n τ o = .ret out τ') :
      Alone step next σ (log ++ [.ret out]) τ'
  | threw {log : List (Seen (Verif.Out L A V))} {τ τ' : Boxes L A V} {x : Exn} (o : Op) (mem : Bool) (n : N)
      (h : Alone step next σ log τ) (hn : next log = some o) (hc : step mem n τ o = .threw x τ') :
      Alone step next σ (log ++ [.exn x]) τ'

/-- A thread `i` uses its own objects as it likes, and those that are shared only as operands that its calls do not change;
and all its calls are legal if it is alone, whether or not storage is available and operations of the owned type throw.
`legal` are the preconditions of a call, `operands` and `changes` the objects it names and changes. -/
def Fair {V N : Type} (step : Bool → N → Boxes L A V → Op → Result L A V) (legal : Boxes L A V → Op → Prop)
    (operands changes : Op → List L) (owner : L → Option Th) (next : Th → List (Seen (Verif.Out L A V)) → Option Op)
    (σ : Boxes L A V) (i : Th) : Prop :=
  ∀ log τ o, Alone step (next i) σ log τ → next i log = some o →
    legal τ o ∧ ∀ z ∈ operands o, owner z = some i ∨ owner z = none ∧ z ∉ changes o

/-- How many steps thread `i` makes. -/
def turns [DecidableEq Th] (i : Th) (sched : List (Th × Env)) : Nat := (sched.filter (fun p => decide (p.1 = i))).length

end
end Verif.Spec
