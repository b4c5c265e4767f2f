import Verif.Client
import Verif.Spec.Compare
import Verif.Spec.Query
import Verif.Spec.Run
import Verif.Spec.Polymorphic14

/-!
# Specification of client programs

A client that runs on plain values: no heap, no pointers.  `step mem n σ c` is what the call `c` does on the values `σ`
(`Spec.step`, `Spec.estep`, `Spec.pstep`, …); `mem` and `n` are what the environment decides.
-/

set_option autoImplicit false

namespace Verif.Spec
open Verif

/-- How a client ends. -/
inductive End (L A V α : Type) where
  | done (a : α) (σ : Boxes L A V)
  | terminated
  /-- a call violated a precondition -/
  | illegal

section
variable {L A V N C α : Type}

/-- Run a client on values; `luck i` is what the environment decides in call number `i`. -/
def runOn (step : Bool → N → Boxes L A V → C → Result L A V) :
    Client C (Out L A V) α → (Nat → Bool × N) → Boxes L A V → End L A V α
  | .ret a, _, σ => .done a σ
  | .call c k, luck, σ =>
    match step (luck 0).1 (luck 0).2 σ c with
    | .ret o σ' => runOn step (k (.ret o)) (fun i => luck (i + 1)) σ'
    | .threw e σ' => runOn step (k (.exn e)) (fun i => luck (i + 1)) σ'
    | .terminated => .terminated
    | .illegal => .illegal

/-- The client never violates a precondition, whatever the environment decides. -/
def Careful (step : Bool → N → Boxes L A V → C → Result L A V) (legal : Boxes L A V → C → Prop) :
    Client C (Out L A V) α → Boxes L A V → Prop
  | .ret _, _ => True
  | .call c k, σ => legal σ c ∧ ∀ mem n, match step mem n σ c with
    | .ret o σ' => Careful step legal (k (.ret o)) σ'
    | .threw e σ' => Careful step legal (k (.exn e)) σ'
    | .terminated => True
    | .illegal => False

variable {R B : Type}

/-- What the environments decide in the calls of a run: is storage available, and what do the operations of the owned type do? -/
def luckOf (call : C → Env → St L A R B → Res (St L A R B) (Out L A V)) (seed : Env → N) :
    Client C (Out L A V) α → (Nat → Env) → St L A R B → Nat → Bool × N
  | .ret _, es, s => fun i => (available s (es i), seed (es i))
  | .call c k, es, s => fun
    | 0 => (available s (es 0), seed (es 0))
    | i + 1 =>
      match call c (es 0) s with
      | .ok o s' => luckOf call seed (k (.ret o)) (fun j => es (j + 1)) s' i
      | .threw e s' => luckOf call seed (k (.exn e)) (fun j => es (j + 1)) s' i
      | _ => (true, seed (es (i + 1)))

/-- A run in memory ends as a run on values: `abs` are the values in memory.  In particular there is no undefined behaviour. -/
def EndsAs (abs : St L A R B → Boxes L A V) : Res (St L A R B) α → End L A V α → Prop
  | .ok a s, .done b σ => a = b ∧ abs s = σ
  | .terminated, .terminated => True
  | _, _ => False

/-- Two runs in memory end alike. -/
def EndAlike (abs : St L A R B → Boxes L A V) : Res (St L A R B) α → Res (St L A R B) α → Prop
  | .ok a s, .ok b s' => a = b ∧ abs s = abs s'
  | .terminated, .terminated => True
  | _, _ => False

/-- Every block of storage is owned by exactly one object, and every owned block is allocated. -/
def OwnedOnce (s : St L A R B) : Prop :=
  (∀ p c, s.heap p = some c → ∃ z h, s.hs z = some h ∧ h.p = some p) ∧
  (∀ z h p, s.hs z = some h → h.p = some p → s.heap p ≠ none) ∧
  ∀ z z' h h' p, s.hs z = some h → s.hs z' = some h' → h.p = some p → h'.p = some p → z = z'

end

/-! ## Sorting -/

section
variable {L A R V : Type}

/-- The order of objects: no value comes first. -/
def before (less : V → V → Bool) : Option V → Option V → Bool
  | none, some _ => true
  | some v, some w => less v w
  | _, none => false

/-- Nothing comes before something that is earlier in the list. -/
def Sorted (less : V → V → Bool) (l : List (Option V)) : Prop := l.Pairwise fun a b => before less b a = false

/-- All objects are alive, and any two may be swapped. -/
def Swappable (tr : ATraits A R) (σ : Boxes L A V) (xs : List L) : Prop :=
  ∀ x ∈ xs, ∃ b, σ x = some b ∧ ∀ y ∈ xs, ∀ c, σ y = some c → tr.pocs = true ∨ tr.eq b.alloc c.alloc = true

/-- The comparisons of the owned type that `<=>` of indirect.h uses do not throw and are given by `less`. -/
def Compares (C : TCmp V) (less : V → V → Bool) : Prop :=
  ∀ f v w, ∃ c, qthree C f v w = .ok c ∧ (c = .less ↔ less v w = true)

/-- `<` of the owned type does not throw and is `less`. -/
def Compares14 (C : TCmp V) (less : V → V → Bool) : Prop := ∀ v w n, C.lt v w n = .ok (less v w)

end

/-! ## Exchange by moves -/

section
variable {L A V X : Type} [DecidableEq L]

/-- A value (if there is one) is moved to a new object, which becomes `w`. -/
def Moved (T : TSpec V X) : Option V → Option V → Prop
  | none, w => w = none
  | some v, w => ∃ n u, (T.move v n).1 = .ok u ∧ w = some u

/-- `std::swap(x, y)` by name has ended, and allocators are unequal and stay where they are: `x` was `k`, `y` was `l`.  If it
returned, the values were moved crosswise.  If it threw, the value of `x` is lost: `x` has no value or the one from `y`, and
`y` its own or what is left of it. -/
def ByMoves (T : TSpec V X) (x y : L) (k l : Box A V) (σ σ' : Boxes L A V) (returned : Bool) : Prop :=
  ∃ v w, σ' = put (put σ x ⟨k.alloc, v⟩) y ⟨l.alloc, w⟩ ∧
    (returned = true → Moved T l.val v ∧ Moved T k.val w) ∧
    (returned = false → (v = none ∨ Moved T l.val v) ∧ (w = l.val ∨ ∃ u n, l.val = some u ∧ w = some (T.move u n).2))

end
end Verif.Spec
