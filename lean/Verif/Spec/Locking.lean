import Verif.Locking
import Verif.Spec.Synced

/-!
# Locking discipline

Every object is protected by a mutex, belongs to one thread, or is never changed.  A thread is checked by itself: its proof
outline says what it knows at each place in its program about the objects that it may use there.
-/

set_option autoImplicit false

namespace Verif.Spec
open Verif

/-- What protects an object. -/
inductive Guard (Th M : Type) where
  /-- a mutex -/
  | mutex (m : M)
  /-- only this thread uses it -/
  | thread (i : Th)
  /-- nobody changes it -/
  | constant

section
variable {Th M K L A V N Op : Type}

/-- Thread `i`, which has locked mutexes as `held` says, may use object `z`. -/
def MayUse (guard : L → Guard Th M) (i : Th) (held : M → Option Mode) (z : L) : Prop :=
  match guard z with
  | .mutex m => held m ≠ none
  | .thread j => j = i
  | .constant => True

/-- Thread `i`, which has locked mutexes as `held` says, may change object `z`. -/
def MayChange (guard : L → Guard Th M) (i : Th) (held : M → Option Mode) (z : L) : Prop :=
  match guard z with
  | .mutex m => held m = some .exclusive
  | .thread j => j = i
  | .constant => False

/-- Something is known about the objects after a call. -/
def After (P : Seen (Verif.Out L A V) → Boxes L A V → Prop) : Result L A V → Prop
  | .ret out σ => P (.ret out) σ
  | .threw x σ => P (.exn x) σ
  | .terminated => True
  | .illegal => False

/-- The outline `know` holds of all threads, and `inv m` of the objects of mutex `m` whenever it is not locked exclusively.
`know i k held σ`: what thread `i` knows at place `k`, with mutexes locked as `held` says, when the objects are as `σ` says.
Each condition is about one thread. -/
structure Outline [DecidableEq M] (step : Bool → N → Boxes L A V → Op → Result L A V) (legal : Boxes L A V → Op → Prop)
    (operands changes : Op → List L) (act : Th → K → Todo M Op (Verif.Out L A V) K) (guard : L → Guard Th M)
    (inv : M → Boxes L A V → Prop) (know : Th → K → (M → Option Mode) → Boxes L A V → Prop) : Prop where
  /-- what is demanded of the objects of a mutex is about them only -/
  inv_local : ∀ m σ τ, (∀ z, guard z = .mutex m → σ z = τ z) → inv m σ → inv m τ
  /-- a thread knows something only about objects that it may use -/
  know_local : ∀ i k held σ τ, (∀ z, MayUse guard i held z → σ z = τ z) → know i k held σ → know i k held τ
  /-- a thread locks only mutexes that it has not locked, and then finds their objects in order -/
  lock : ∀ i k held σ m mode k', know i k held σ → act i k = .lock m mode k' → held m = none ∧
    ∀ τ, (∀ z, MayUse guard i held z → σ z = τ z) → inv m τ → know i k' (upd held m (some mode)) τ
  /-- a thread unlocks only mutexes that it has locked, and leaves their objects in order -/
  unlock : ∀ i k held σ m k', know i k held σ → act i k = .unlock m k' → held m ≠ none ∧
    (held m = some .exclusive → inv m σ) ∧ know i k' (upd held m none) σ
  /-- a thread uses and changes only objects that it may, observes the preconditions, and goes on with what it then knows -/
  call : ∀ i k held σ o k', know i k held σ → act i k = .call o k' →
    (∀ z ∈ operands o, MayUse guard i held z) ∧ (∀ z ∈ changes o, MayChange guard i held z) ∧ legal σ o ∧
    ∀ mem n, After (fun a τ => know i (k' a) held τ) (step mem n σ o)

/-- The outline holds at the start, with the objects as `σ` says and the threads at these places. -/
def Begins (inv : M → Boxes L A V → Prop) (know : Th → K → (M → Option Mode) → Boxes L A V → Prop) (place : Th → K)
    (σ : Boxes L A V) : Prop :=
  (∀ i, know i (place i) (fun _ => none) σ) ∧ ∀ m, inv m σ

end
end Verif.Spec
