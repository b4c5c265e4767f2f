import Verif.Compare
import Verif.Indirect14

/-!
# Comparisons and hashes as calls

The operators of `Verif/Compare.lean`, with the objects named and the owned type given by functions, so that threads can call
them (`Verif/Concurrent.lean`).  Simplification: a plain value that is compared with an object has the owned type.
-/

set_option autoImplicit false

namespace Verif

/-- The comparisons and the hash of the owned type.  The number is what the environment decides; they may throw, but change
nothing.  `threeWay` is `<=>`, if there is one. -/
structure TCmp (V : Type) where
  threeWay : Option (V → V → Nat → Except Exn Cmp)
  eq : V → V → Nat → Except Exn Bool
  ne : V → V → Nat → Except Exn Bool
  lt : V → V → Nat → Except Exn Bool
  gt : V → V → Nat → Except Exn Bool
  le : V → V → Nat → Except Exn Bool
  ge : V → V → Nat → Except Exn Bool
  hash : V → Nat → Except Exn Nat
  /-- `static_cast<size_t>(-1)` -/
  npos : Nat

/-- The six relational operators. -/
inductive Rel where
  | eq | ne | lt | gt | le | ge
  deriving DecidableEq, Repr

/-- The operator of the owned type. -/
def TCmp.rel {V : Type} (C : TCmp V) : Rel → V → V → Nat → Except Exn Bool
  | .eq => C.eq
  | .ne => C.ne
  | .lt => C.lt
  | .gt => C.gt
  | .le => C.le
  | .ge => C.ge

/-- Calls of the operators and of the hash in indirect.h.  (The other operators are rewritten by the language in terms of these.) -/
inductive Query (L V : Type) where
  | eq (x y : L)
  | cmp (x y : L)
  | eqU (x : L) (w : V)
  | cmpU (x : L) (w : V)
  | hash (x : L)

/-- Calls of the operators and of the hash in indirect_cxx14.h: between two objects, an object and a value, a value and an
object. -/
inductive Query14 (L V : Type) where
  | rel (r : Rel) (x y : L)
  | relIU (r : Rel) (x : L) (w : V)
  | relUI (r : Rel) (w : V) (x : L)
  | hash (x : L)

/-- A call of a member, or of one of the operators or the hash. -/
inductive Either (O Q : Type) where
  | call (o : O)
  | query (q : Q)

section
variable {L A R V : Type} [DecidableEq L] [DecidableEq R]

/-- An operation of the owned type on values. -/
def ask {B α : Type} [Body B] (f : Nat → Except Exn α) : M (St L A R B) α := do
  match f (← choose) with
  | .ok a => pure a
  | .error e => M.throwE e

/-- The comparisons that `synth_three_way` (indirect.h:51-65) uses. -/
def TCmp.ordered (C : TCmp V) : Ordered (St L A R (Obj V)) V V where
  threeWay := C.threeWay.map fun f v w => ask (f v w)
  lt v w := ask (C.lt v w)
  gt v w := ask (C.lt w v)

/-- The operators and the hash of indirect.h; see `Compare20`. -/
def Indirect.query (C : TCmp V) : Query L V → M (St L A R (Obj V)) (Out L A V)
  | .eq x y => do
    let b ← Compare20.eq (fun v w => ask (C.eq v w)) (Indirect.ref x) (Indirect.ref y)
    pure (.bool b)
  | .cmp x y => do
    let c ← Compare20.cmp C.ordered (Indirect.ref x) (Indirect.ref y)
    pure (.ordering c)
  | .eqU x w => do
    let b ← Compare20.eqU (fun v w => ask (C.eq v w)) (Indirect.ref x) w
    pure (.bool b)
  | .cmpU x w => do
    let c ← Compare20.cmpU C.ordered (Indirect.ref x) w
    pure (.ordering c)
  | .hash x => do
    let h ← Compare20.hash C.npos (fun v => ask (C.hash v)) (Indirect.ref x)
    pure (.hash h)

/-- The operator of indirect_cxx14.h between two objects; see `Compare14`. -/
def Compare14.rel {σ V W : Type} : Rel → (V → W → M σ Bool) → Ref σ V → Ref σ W → M σ Bool
  | .eq => Compare14.eq
  | .ne => Compare14.ne
  | .lt => Compare14.lt
  | .gt => Compare14.gt
  | .le => Compare14.le
  | .ge => Compare14.ge

/-- The operator of indirect_cxx14.h between an object and a value. -/
def Compare14.relIU {σ V W : Type} : Rel → (V → W → M σ Bool) → Ref σ V → W → M σ Bool
  | .eq => Compare14.eqIU
  | .ne => Compare14.neIU
  | .lt => Compare14.ltIU
  | .gt => Compare14.gtIU
  | .le => Compare14.leIU
  | .ge => Compare14.geIU

/-- The operator of indirect_cxx14.h between a value and an object. -/
def Compare14.relUI {σ V W : Type} : Rel → (W → V → M σ Bool) → W → Ref σ V → M σ Bool
  | .eq => Compare14.eqUI
  | .ne => Compare14.neUI
  | .lt => Compare14.ltUI
  | .gt => Compare14.gtUI
  | .le => Compare14.leUI
  | .ge => Compare14.geUI

/-- The operators and the hash of indirect_cxx14.h; see `Compare14`. -/
def Indirect14.query (C : TCmp V) : Query14 L V → M (St L A R (Obj V)) (Out L A V)
  | .rel r x y => do
    let b ← Compare14.rel r (fun v w => ask (C.rel r v w)) (Indirect.ref x) (Indirect.ref y)
    pure (.bool b)
  | .relIU r x w => do
    let b ← Compare14.relIU r (fun v w => ask (C.rel r v w)) (Indirect.ref x) w
    pure (.bool b)
  | .relUI r w x => do
    let b ← Compare14.relUI r (fun w v => ask (C.rel r w v)) w (Indirect.ref x)
    pure (.bool b)
  | .hash x => do
    let h ← Compare14.hash C.npos (fun v => ask (C.hash v)) (Indirect.ref x)
    pure (.hash h)

end
end Verif
