import Verif.Spec.Run

/-!
# Interleaved histories

An interleaving of the calls of several threads is a list of calls marked with the thread that makes them.
-/

set_option autoImplicit false

namespace Verif.Spec

/-- The entries of `xs` (results, or circumstances, of the calls of `cs`, in order) that belong to thread `t`. -/
def ofThread {Th C α : Type} [DecidableEq Th] (t : Th) : List (Th × C) → List α → List α
  | (i, _) :: cs, x :: xs => if i = t then x :: ofThread t cs xs else ofThread t cs xs
  | _, _ => []

/-- The calls of thread `t`. -/
def callsOf {Th C : Type} [DecidableEq Th] (t : Th) (cs : List (Th × C)) : List C := ofThread t cs (cs.map (·.2))

/-- What happened outside during each call of a history: whether storage was available, and the number that decided
the outcome of the operation of the owned type. -/
def lucksWith {L A R B Op Out : Type} (call : Op → Env → St L A R B → Res (St L A R B) Out) :
    List (Op × Env) → St L A R B → List Luck
  | [], _ => []
  | (o, e) :: cs, s => ⟨available s e, e.choice 0⟩ ::
    match call o e s with
    | .ok _ s' => lucksWith call cs s'
    | .threw _ s' => lucksWith call cs s'
    | _ => []

/-- Thread `t` may use object `z`: it is its own, or shared by all. -/
def Uses {L Th : Type} (owner : L → Option Th) (t : Th) (z : L) : Prop := owner z = some t ∨ owner z = none

end Verif.Spec
