import Verif.Query
import Verif.IndirectFine

/-!
# The comparisons and hashes of indirect.h and indirect_cxx14.h as programs of accesses

The text of `Verif/Compare.lean` and `Verif/Query.lean` in another monad, as in `Verif/IndirectFine.lean`.
-/

set_option autoImplicit false

namespace Verif.Fine

/-- An object accessed through `valueless_after_move()` and `*`. -/
structure FRef (L A R B V : Type) where
  valueless : Prog L A R B Bool
  deref : Prog L A R B V

/-- The object at `x`: `valueless_after_move()` (indirect.h:341-343) and the value of `*x` (indirect.h:311-329). -/
def Indirect.fref {L A R V : Type} (x : L) : FRef L A R (Obj V) V where
  valueless := Indirect.valueless x
  deref := do
    let p ← Indirect.deref x
    readObj p

/-- An operation of the owned type on values. -/
def ask {L A R B α : Type} (f : Nat → Except Exn α) : Prog L A R B α := do
  match f (← choose) with
  | .ok a => pure a
  | .error e => Prog.throwE e

/-- What `synth_three_way` uses of two types: `t <=> u` if `three_way_comparable_with` holds, `t < u` and `u < t`.
Comparisons of owned values are computations: they may throw, and do what they like. -/
structure FOrdered (L A R B V W : Type) where
  threeWay : Option (V → W → Prog L A R B Cmp)
  lt : V → W → Prog L A R B Bool
  gt : V → W → Prog L A R B Bool

/-- `synth_three_way`, indirect.h:51-65.  `gt t u` is `u < t`. -/
def synthThreeWay {L A R B V W : Type} (o : FOrdered L A R B V W) (t : V) (u : W) : Prog L A R B Cmp :=
  match o.threeWay with
  | some f => f t u
  | none => do
    if ← o.lt t u then pure .less
    else if ← o.gt t u then pure .greater
    else pure .equivalent

namespace Compare20
section
variable {L A R B V W : Type}

/-- `operator==(const indirect<T, A>&, const indirect<U, AA>&)`, indirect.h:377-387. -/
def eq (eqT : V → W → Prog L A R B Bool) (lhs : FRef L A R B V) (rhs : FRef L A R B W) : Prog L A R B Bool := do
  if ← lhs.valueless then
    rhs.valueless
  else if ← rhs.valueless then
    pure false
  else
    let l ← lhs.deref
    let r ← rhs.deref
    eqT l r

/-- `operator==(const indirect<T, A>&, const U&)`, indirect.h:389-398. -/
def eqU (eqT : V → W → Prog L A R B Bool) (lhs : FRef L A R B V) (rhs : W) : Prog L A R B Bool := do
  if ← lhs.valueless then
    pure false
  else
    let l ← lhs.deref
    eqT l rhs

/-- `operator<=>(const indirect<T, A>&, const indirect<U, AA>&)`, indirect.h:400-408. -/
def cmp (o : FOrdered L A R B V W) (lhs : FRef L A R B V) (rhs : FRef L A R B W) : Prog L A R B Cmp := do
  let b ← (do if ← lhs.valueless then pure true else rhs.valueless)
  if b then
    let l ← lhs.valueless
    let r ← rhs.valueless
    pure (Cmp.ofBool (!l) (!r))
  else
    let l ← lhs.deref
    let r ← rhs.deref
    synthThreeWay o l r

/-- `operator<=>(const indirect<T, A>&, const U&)`, indirect.h:410-425. -/
def cmpU (o : FOrdered L A R B V W) (lhs : FRef L A R B V) (rhs : W) : Prog L A R B Cmp := do
  if ← lhs.valueless then
    pure .less
  else
    let l ← lhs.deref
    synthThreeWay o l rhs

/-- `std::hash<indirect<T, Alloc>>::operator()`, indirect.h:474-483, with `npos` for `static_cast<size_t>(-1)`. -/
def hash {H : Type} (npos : H) (hashT : V → Prog L A R B H) (key : FRef L A R B V) : Prog L A R B H := do
  if ← key.valueless then
    pure npos
  else
    let v ← key.deref
    hashT v

end
end Compare20

namespace Compare14
section
variable {L A R B V W : Type}

/-- `operator==(const indirect&, const indirect&)`, indirect_cxx14.h:375-382. -/
def eq (eqT : V → W → Prog L A R B Bool) (lhs : FRef L A R B V) (rhs : FRef L A R B W) : Prog L A R B Bool := do
  let b ← (do if ← lhs.valueless then pure true else rhs.valueless)
  if b then
    if ← lhs.valueless then rhs.valueless else pure false
  else
    let l ← lhs.deref
    let r ← rhs.deref
    eqT l r

/-- `operator!=(const indirect&, const indirect&)`, indirect_cxx14.h:384-391. -/
def ne (neT : V → W → Prog L A R B Bool) (lhs : FRef L A R B V) (rhs : FRef L A R B W) : Prog L A R B Bool := do
  let b ← (do if ← lhs.valueless then pure true else rhs.valueless)
  if b then
    let c ← (do if ← lhs.valueless then rhs.valueless else pure false)
    pure (!c)
  else
    let l ← lhs.deref
    let r ← rhs.deref
    neT l r

/-- `operator<(const indirect&, const indirect&)`, indirect_cxx14.h:393-400. -/
def lt (ltT : V → W → Prog L A R B Bool) (lhs : FRef L A R B V) (rhs : FRef L A R B W) : Prog L A R B Bool := do
  if ← lhs.valueless then
    let r ← rhs.valueless
    pure (!r)
  else if !(← rhs.valueless) then
    let l ← lhs.deref
    let r ← rhs.deref
    ltT l r
  else
    pure false

/-- `operator>(const indirect&, const indirect&)`, indirect_cxx14.h:402-409. -/
def gt (gtT : V → W → Prog L A R B Bool) (lhs : FRef L A R B V) (rhs : FRef L A R B W) : Prog L A R B Bool := do
  if ← rhs.valueless then
    let l ← lhs.valueless
    pure (!l)
  else if !(← lhs.valueless) then
    let l ← lhs.deref
    let r ← rhs.deref
    gtT l r
  else
    pure false

/-- `operator<=(const indirect&, const indirect&)`, indirect_cxx14.h:411-418. -/
def le (leT : V → W → Prog L A R B Bool) (lhs : FRef L A R B V) (rhs : FRef L A R B W) : Prog L A R B Bool := do
  if ← lhs.valueless then
    pure true
  else if !(← rhs.valueless) then
    let l ← lhs.deref
    let r ← rhs.deref
    leT l r
  else
    pure false

/-- `operator>=(const indirect&, const indirect&)`, indirect_cxx14.h:420-428. -/
def ge (geT : V → W → Prog L A R B Bool) (lhs : FRef L A R B V) (rhs : FRef L A R B W) : Prog L A R B Bool := do
  if ← rhs.valueless then
    pure true
  else if !(← lhs.valueless) then
    let l ← lhs.deref
    let r ← rhs.deref
    geT l r
  else
    pure false

/-- The shape of the twelve operators between an `indirect` and a plain value: a constant if the `indirect` is
valueless, else an operation on the value. -/
def mixed (c : Bool) (f : V → Prog L A R B Bool) (x : FRef L A R B V) : Prog L A R B Bool := do
  if ← x.valueless then
    pure c
  else
    let v ← x.deref
    f v

/-- `operator==(const indirect&, const U&)`, indirect_cxx14.h:430-438. -/
def eqIU (eqT : V → W → Prog L A R B Bool) (lhs : FRef L A R B V) (rhs : W) : Prog L A R B Bool :=
  mixed false (fun l => eqT l rhs) lhs
/-- `operator==(const U&, const indirect&)`, indirect_cxx14.h:440-448. -/
def eqUI (eqT : W → V → Prog L A R B Bool) (lhs : W) (rhs : FRef L A R B V) : Prog L A R B Bool :=
  mixed false (fun r => eqT lhs r) rhs
/-- `operator!=(const indirect&, const U&)`, indirect_cxx14.h:450-458. -/
def neIU (neT : V → W → Prog L A R B Bool) (lhs : FRef L A R B V) (rhs : W) : Prog L A R B Bool :=
  mixed true (fun l => neT l rhs) lhs
/-- `operator!=(const U&, const indirect&)`, indirect_cxx14.h:460-468. -/
def neUI (neT : W → V → Prog L A R B Bool) (lhs : W) (rhs : FRef L A R B V) : Prog L A R B Bool :=
  mixed true (fun r => neT lhs r) rhs
/-- `operator<(const indirect&, const U&)`, indirect_cxx14.h:470-477. -/
def ltIU (ltT : V → W → Prog L A R B Bool) (lhs : FRef L A R B V) (rhs : W) : Prog L A R B Bool :=
  mixed true (fun l => ltT l rhs) lhs
/-- `operator<(const U&, const indirect&)`, indirect_cxx14.h:479-486. -/
def ltUI (ltT : W → V → Prog L A R B Bool) (lhs : W) (rhs : FRef L A R B V) : Prog L A R B Bool :=
  mixed false (fun r => ltT lhs r) rhs
/-- `operator>(const indirect&, const U&)`, indirect_cxx14.h:488-495. -/
def gtIU (gtT : V → W → Prog L A R B Bool) (lhs : FRef L A R B V) (rhs : W) : Prog L A R B Bool :=
  mixed false (fun l => gtT l rhs) lhs
/-- `operator>(const U&, const indirect&)`, indirect_cxx14.h:497-504. -/
def gtUI (gtT : W → V → Prog L A R B Bool) (lhs : W) (rhs : FRef L A R B V) : Prog L A R B Bool :=
  mixed true (fun r => gtT lhs r) rhs
/-- `operator<=(const indirect&, const U&)`, indirect_cxx14.h:506-514. -/
def leIU (leT : V → W → Prog L A R B Bool) (lhs : FRef L A R B V) (rhs : W) : Prog L A R B Bool :=
  mixed true (fun l => leT l rhs) lhs
/-- `operator<=(const U&, const indirect&)`, indirect_cxx14.h:516-524. -/
def leUI (leT : W → V → Prog L A R B Bool) (lhs : W) (rhs : FRef L A R B V) : Prog L A R B Bool :=
  mixed false (fun r => leT lhs r) rhs
/-- `operator>=(const indirect&, const U&)`, indirect_cxx14.h:526-534. -/
def geIU (geT : V → W → Prog L A R B Bool) (lhs : FRef L A R B V) (rhs : W) : Prog L A R B Bool :=
  mixed false (fun l => geT l rhs) lhs
/-- `operator>=(const U&, const indirect&)`, indirect_cxx14.h:536-544. -/
def geUI (geT : W → V → Prog L A R B Bool) (lhs : W) (rhs : FRef L A R B V) : Prog L A R B Bool :=
  mixed true (fun r => geT lhs r) rhs

/-- `std::hash<indirect<T, Alloc>>::operator()`, indirect_cxx14.h:584-592. -/
def hash {H : Type} (npos : H) (hashT : V → Prog L A R B H) (key : FRef L A R B V) : Prog L A R B H := do
  if ← key.valueless then
    pure npos
  else
    let v ← key.deref
    hashT v

end
end Compare14

section
variable {L A R V : Type} [DecidableEq L]

/-- The comparisons that `synth_three_way` (indirect.h:51-65) uses. -/
def ordered (C : TCmp V) : FOrdered L A R (Obj V) V V where
  threeWay := C.threeWay.map fun f v w => ask (f v w)
  lt v w := ask (C.lt v w)
  gt v w := ask (C.lt w v)

/-- The operators and the hash of indirect.h; see `Compare20`. -/
def Indirect.query (C : TCmp V) : Query L V → Prog L A R (Obj V) (Out L A V)
  | .eq x y => do
    let b ← Compare20.eq (fun v w => ask (C.eq v w)) (Indirect.fref x) (Indirect.fref y)
    pure (.bool b)
  | .cmp x y => do
    let c ← Compare20.cmp (ordered C) (Indirect.fref x) (Indirect.fref y)
    pure (.ordering c)
  | .eqU x w => do
    let b ← Compare20.eqU (fun v w => ask (C.eq v w)) (Indirect.fref x) w
    pure (.bool b)
  | .cmpU x w => do
    let c ← Compare20.cmpU (ordered C) (Indirect.fref x) w
    pure (.ordering c)
  | .hash x => do
    let h ← Compare20.hash C.npos (fun v => ask (C.hash v)) (Indirect.fref x)
    pure (.hash h)

/-- The operator of indirect_cxx14.h between two objects; see `Compare14`. -/
def Compare14.rel {L A R B V W : Type} :
    Rel → (V → W → Prog L A R B Bool) → FRef L A R B V → FRef L A R B W → Prog L A R B Bool
  | .eq => Compare14.eq
  | .ne => Compare14.ne
  | .lt => Compare14.lt
  | .gt => Compare14.gt
  | .le => Compare14.le
  | .ge => Compare14.ge

/-- The operator of indirect_cxx14.h between an object and a value. -/
def Compare14.relIU {L A R B V W : Type} : Rel → (V → W → Prog L A R B Bool) → FRef L A R B V → W → Prog L A R B Bool
  | .eq => Compare14.eqIU
  | .ne => Compare14.neIU
  | .lt => Compare14.ltIU
  | .gt => Compare14.gtIU
  | .le => Compare14.leIU
  | .ge => Compare14.geIU

/-- The operator of indirect_cxx14.h between a value and an object. -/
def Compare14.relUI {L A R B V W : Type} : Rel → (W → V → Prog L A R B Bool) → W → FRef L A R B V → Prog L A R B Bool
  | .eq => Compare14.eqUI
  | .ne => Compare14.neUI
  | .lt => Compare14.ltUI
  | .gt => Compare14.gtUI
  | .le => Compare14.leUI
  | .ge => Compare14.geUI

/-- The operators and the hash of indirect_cxx14.h; see `Compare14`. -/
def Indirect14.query (C : TCmp V) : Query14 L V → Prog L A R (Obj V) (Out L A V)
  | .rel r x y => do
    let b ← Compare14.rel r (fun v w => ask (C.rel r v w)) (Indirect.fref x) (Indirect.fref y)
    pure (.bool b)
  | .relIU r x w => do
    let b ← Compare14.relIU r (fun v w => ask (C.rel r v w)) (Indirect.fref x) w
    pure (.bool b)
  | .relUI r w x => do
    let b ← Compare14.relUI r (fun w v => ask (C.rel r w v)) w (Indirect.fref x)
    pure (.bool b)
  | .hash x => do
    let h ← Compare14.hash C.npos (fun v => ask (C.hash v)) (Indirect.fref x)
    pure (.hash h)

/-- Calls of members and of operators and the hash. -/
def either {L A R B O Q α : Type} (f : O → Prog L A R B α) (g : Q → Prog L A R B α) : Either O Q → Prog L A R B α
  | .call o => f o
  | .query q => g q

end
end Verif.Fine
