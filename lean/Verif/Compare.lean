import Verif.IndirectOps

/-!
# Comparison and hashing of `indirect`

The friend operators of indirect.h and indirect_cxx14.h use an object only through `valueless_after_move()` and
`operator*` const&.  `Ref` is an object seen through these two functions; `Indirect.ref` is an object of the machine.
The operators take objects of different types on the two sides, so the two sides may live on different machines
(`Ref.fst`, `Ref.snd`).
-/

set_option autoImplicit false

namespace Verif

/-- An object accessed through `valueless_after_move()` and `*`. -/
structure Ref (σ V : Type) where
  valueless : M σ Bool
  deref : M σ V

namespace M
variable {σ τ α : Type}

/-- Run on the first of two machines. -/
def fst (m : M σ α) : M (σ × τ) α := fun s =>
  match m s.1 with
  | .ok a s' => .ok a (s', s.2)
  | .threw e s' => .threw e (s', s.2)
  | .terminated => .terminated
  | .ub u => .ub u
  | .diverged => .diverged

/-- Run on the second of two machines. -/
def snd (m : M τ α) : M (σ × τ) α := fun s =>
  match m s.2 with
  | .ok a s' => .ok a (s.1, s')
  | .threw e s' => .threw e (s.1, s')
  | .terminated => .terminated
  | .ub u => .ub u
  | .diverged => .diverged

end M

/-- An object of the first of two machines. -/
def Ref.fst {σ τ V : Type} (r : Ref σ V) : Ref (σ × τ) V := ⟨M.fst r.valueless, M.fst r.deref⟩

/-- An object of the second of two machines. -/
def Ref.snd {σ τ V : Type} (r : Ref τ V) : Ref (σ × τ) V := ⟨M.snd r.valueless, M.snd r.deref⟩

/-- The object at `x`: `valueless_after_move()` (indirect.h:341-343) and the value of `*x` (indirect.h:311-329). -/
def Indirect.ref {L A R V : Type} (x : L) : Ref (St L A R (Obj V)) V where
  valueless := Indirect.valueless x
  deref := do
    let p ← Indirect.deref x
    readObj p

/-- `a <=> b` for `bool`s (built in). -/
def Cmp.ofBool : Bool → Bool → Cmp
  | false, true => .less
  | true, false => .greater
  | _, _ => .equivalent

/-- What `synth_three_way` uses of two types: `t <=> u` if `three_way_comparable_with` holds, `t < u` and `u < t`.
Comparisons of owned values are computations: they may throw, and do what they like. -/
structure Ordered (σ V W : Type) where
  threeWay : Option (V → W → M σ Cmp)
  lt : V → W → M σ Bool
  gt : V → W → M σ Bool

/-- `synth_three_way`, indirect.h:51-65.  `gt t u` is `u < t`. -/
def synthThreeWay {σ V W : Type} (o : Ordered σ V W) (t : V) (u : W) : M σ Cmp :=
  match o.threeWay with
  | some f => f t u
  | none => do
    if ← o.lt t u then pure .less
    else if ← o.gt t u then pure .greater
    else pure .equivalent

/-- An operation on values that neither throws nor changes anything. -/
def pureOp {σ V W B : Type} (f : V → W → B) (v : V) (w : W) : M σ B := pure (f v w)

namespace Compare20
section
variable {σ V W : Type}

/-- `operator==(const indirect<T, A>&, const indirect<U, AA>&)`, indirect.h:377-387. -/
def eq (eqT : V → W → M σ Bool) (lhs : Ref σ V) (rhs : Ref σ W) : M σ Bool := do
  if ← lhs.valueless then
    rhs.valueless
  else if ← rhs.valueless then
    pure false
  else
    let l ← lhs.deref
    let r ← rhs.deref
    eqT l r

/-- `operator==(const indirect<T, A>&, const U&)`, indirect.h:389-398. -/
def eqU (eqT : V → W → M σ Bool) (lhs : Ref σ V) (rhs : W) : M σ Bool := do
  if ← lhs.valueless then
    pure false
  else
    let l ← lhs.deref
    eqT l rhs

/-- `operator<=>(const indirect<T, A>&, const indirect<U, AA>&)`, indirect.h:400-408. -/
def cmp (o : Ordered σ V W) (lhs : Ref σ V) (rhs : Ref σ W) : M σ Cmp := do
  let b ← (do if ← lhs.valueless then pure true else rhs.valueless)
  if b then
    let l ← lhs.valueless
    let r ← rhs.valueless
    pure (Cmp.ofBool (!l) (!r))
  else
    let l ← lhs.deref
    let r ← rhs.deref
    synthThreeWay o l r

/-- `operator<=>(const indirect<T, A>&, const U&)`, indirect.h:410-425. -/
def cmpU (o : Ordered σ V W) (lhs : Ref σ V) (rhs : W) : M σ Cmp := do
  if ← lhs.valueless then
    pure .less
  else
    let l ← lhs.deref
    synthThreeWay o l rhs

/-- `std::hash<indirect<T, Alloc>>::operator()`, indirect.h:474-483, with `npos` for `static_cast<size_t>(-1)`. -/
def hash {H : Type} (npos : H) (hashT : V → M σ H) (key : Ref σ V) : M σ H := do
  if ← key.valueless then
    pure npos
  else
    let v ← key.deref
    hashT v

end
end Compare20

namespace Compare14
section
variable {σ V W : Type}

/-- `operator==(const indirect&, const indirect&)`, indirect_cxx14.h:375-382. -/
def eq (eqT : V → W → M σ Bool) (lhs : Ref σ V) (rhs : Ref σ W) : M σ Bool := do
  let b ← (do if ← lhs.valueless then pure true else rhs.valueless)
  if b then
    if ← lhs.valueless then rhs.valueless else pure false
  else
    let l ← lhs.deref
    let r ← rhs.deref
    eqT l r

/-- `operator!=(const indirect&, const indirect&)`, indirect_cxx14.h:384-391. -/
def ne (neT : V → W → M σ Bool) (lhs : Ref σ V) (rhs : Ref σ W) : M σ Bool := do
  let b ← (do if ← lhs.valueless then pure true else rhs.valueless)
  if b then
    let c ← (do if ← lhs.valueless then rhs.valueless else pure false)
    pure (!c)
  else
    let l ← lhs.deref
    let r ← rhs.deref
    neT l r

/-- `operator<(const indirect&, const indirect&)`, indirect_cxx14.h:393-400. -/
def lt (ltT : V → W → M σ Bool) (lhs : Ref σ V) (rhs : Ref σ W) : M σ Bool := do
  if ← lhs.valueless then
    let r ← rhs.valueless
    pure (!r)
  else if !(← rhs.valueless) then
    let l ← lhs.deref
    let r ← rhs.deref
    ltT l r
  else
    pure false

/-- `operator>(const indirect&, const indirect&)`, indirect_cxx14.h:402-409. -/
def gt (gtT : V → W → M σ Bool) (lhs : Ref σ V) (rhs : Ref σ W) : M σ Bool := do
  if ← rhs.valueless then
    let l ← lhs.valueless
    pure (!l)
  else if !(← lhs.valueless) then
    let l ← lhs.deref
    let r ← rhs.deref
    gtT l r
  else
    pure false

/-- `operator<=(const indirect&, const indirect&)`, indirect_cxx14.h:411-418. -/
def le (leT : V → W → M σ Bool) (lhs : Ref σ V) (rhs : Ref σ W) : M σ Bool := do
  if ← lhs.valueless then
    pure true
  else if !(← rhs.valueless) then
    let l ← lhs.deref
    let r ← rhs.deref
    leT l r
  else
    pure false

/-- `operator>=(const indirect&, const indirect&)`, indirect_cxx14.h:420-428. -/
def ge (geT : V → W → M σ Bool) (lhs : Ref σ V) (rhs : Ref σ W) : M σ Bool := do
  if ← rhs.valueless then
    pure true
  else if !(← lhs.valueless) then
    let l ← lhs.deref
    let r ← rhs.deref
    geT l r
  else
    pure false

/-- The shape of the twelve operators between an `indirect` and a plain value: a constant if the `indirect` is
valueless, else an operation on the value. -/
def mixed (c : Bool) (f : V → M σ Bool) (x : Ref σ V) : M σ Bool := do
  if ← x.valueless then
    pure c
  else
    let v ← x.deref
    f v

/-- `operator==(const indirect&, const U&)`, indirect_cxx14.h:430-438. -/
def eqIU (eqT : V → W → M σ Bool) (lhs : Ref σ V) (rhs : W) : M σ Bool := mixed false (fun l => eqT l rhs) lhs
/-- `operator==(const U&, const indirect&)`, indirect_cxx14.h:440-448. -/
def eqUI (eqT : W → V → M σ Bool) (lhs : W) (rhs : Ref σ V) : M σ Bool := mixed false (fun r => eqT lhs r) rhs
/-- `operator!=(const indirect&, const U&)`, indirect_cxx14.h:450-458. -/
def neIU (neT : V → W → M σ Bool) (lhs : Ref σ V) (rhs : W) : M σ Bool := mixed true (fun l => neT l rhs) lhs
/-- `operator!=(const U&, const indirect&)`, indirect_cxx14.h:460-468. -/
def neUI (neT : W → V → M σ Bool) (lhs : W) (rhs : Ref σ V) : M σ Bool := mixed true (fun r => neT lhs r) rhs
/-- `operator<(const indirect&, const U&)`, indirect_cxx14.h:470-477. -/
def ltIU (ltT : V → W → M σ Bool) (lhs : Ref σ V) (rhs : W) : M σ Bool := mixed true (fun l => ltT l rhs) lhs
/-- `operator<(const U&, const indirect&)`, indirect_cxx14.h:479-486. -/
def ltUI (ltT : W → V → M σ Bool) (lhs : W) (rhs : Ref σ V) : M σ Bool := mixed false (fun r => ltT lhs r) rhs
/-- `operator>(const indirect&, const U&)`, indirect_cxx14.h:488-495. -/
def gtIU (gtT : V → W → M σ Bool) (lhs : Ref σ V) (rhs : W) : M σ Bool := mixed false (fun l => gtT l rhs) lhs
/-- `operator>(const U&, const indirect&)`, indirect_cxx14.h:497-504. -/
def gtUI (gtT : W → V → M σ Bool) (lhs : W) (rhs : Ref σ V) : M σ Bool := mixed true (fun r => gtT lhs r) rhs
/-- `operator<=(const indirect&, const U&)`, indirect_cxx14.h:506-514. -/
def leIU (leT : V → W → M σ Bool) (lhs : Ref σ V) (rhs : W) : M σ Bool := mixed true (fun l => leT l rhs) lhs
/-- `operator<=(const U&, const indirect&)`, indirect_cxx14.h:516-524. -/
def leUI (leT : W → V → M σ Bool) (lhs : W) (rhs : Ref σ V) : M σ Bool := mixed false (fun r => leT lhs r) rhs
/-- `operator>=(const indirect&, const U&)`, indirect_cxx14.h:526-534. -/
def geIU (geT : V → W → M σ Bool) (lhs : Ref σ V) (rhs : W) : M σ Bool := mixed false (fun l => geT l rhs) lhs
/-- `operator>=(const U&, const indirect&)`, indirect_cxx14.h:536-544. -/
def geUI (geT : W → V → M σ Bool) (lhs : W) (rhs : Ref σ V) : M σ Bool := mixed true (fun r => geT lhs r) rhs

/-- `std::hash<indirect<T, Alloc>>::operator()`, indirect_cxx14.h:584-592. -/
def hash {H : Type} (npos : H) (hashT : V → M σ H) (key : Ref σ V) : M σ H := do
  if ← key.valueless then
    pure npos
  else
    let v ← key.deref
    hashT v

end
end Compare14
end Verif
