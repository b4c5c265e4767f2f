import Verif.Query
import Verif.Spec.Box
import Verif.Spec.Footprint
import Verif.Spec.Indirect14

/-!
# Specification of comparisons and hashes as calls

What the operators and the hash answer, on plain values; `f 0`, `f 1`, … is what the environment decides for the operations of
the owned type.
-/

set_option autoImplicit false

namespace Verif.Spec
open Verif

section
variable {L A R V X : Type} [DecidableEq L]

/-- A comparison of values answers or throws; no object changes. -/
def answer {α : Type} (σ : Boxes L A V) (out : α → Out L A V) : Except Exn α → Result L A V
  | .ok a => .ret (out a) σ
  | .error e => .threw e σ

/-- `==` of optional values. -/
def qeq (C : TCmp V) (f : Nat → Nat) : Option V → Option V → Except Exn Bool
  | some v, some w => C.eq v w (f 0)
  | none, none => .ok true
  | _, _ => .ok false

/-- `<=>` of values: the operator if there is one, else `v < w` and then `w < v`. -/
def qthree (C : TCmp V) (f : Nat → Nat) (v w : V) : Except Exn Cmp :=
  match C.threeWay with
  | some g => g v w (f 0)
  | none =>
    match C.lt v w (f 0) with
    | .error e => .error e
    | .ok true => .ok .less
    | .ok false =>
      match C.lt w v (f 1) with
      | .error e => .error e
      | .ok true => .ok .greater
      | .ok false => .ok .equivalent

/-- `<=>` of optional values: no value comes first. -/
def qcmp (C : TCmp V) (f : Nat → Nat) : Option V → Option V → Except Exn Cmp
  | some v, some w => qthree C f v w
  | none, none => .ok .equivalent
  | none, some _ => .ok .less
  | some _, none => .ok .greater

/-- A hash of an optional value. -/
def qhash (C : TCmp V) (f : Nat → Nat) : Option V → Except Exn Nat
  | some v => C.hash v (f 0)
  | none => .ok C.npos

/-- How numbers compare. -/
def relNat : Rel → Nat → Nat → Bool
  | .eq, a, b => a == b
  | .ne, a, b => a != b
  | .lt, a, b => decide (a < b)
  | .gt, a, b => decide (b < a)
  | .le, a, b => decide (a ≤ b)
  | .ge, a, b => decide (b ≤ a)

/-- How many values there are. -/
def count : Option V → Nat
  | none => 0
  | some _ => 1

/-- The operator of values. -/
def valueRel (C : TCmp V) : Rel → V → V → Nat → Except Exn Bool
  | .eq, v, w, n => C.eq v w n
  | .ne, v, w, n => C.ne v w n
  | .lt, v, w, n => C.lt v w n
  | .gt, v, w, n => C.gt v w n
  | .le, v, w, n => C.le v w n
  | .ge, v, w, n => C.ge v w n

/-- A relational operator on optional values: the operator of values if there are both, else no value comes first. -/
def qrel (C : TCmp V) (r : Rel) (f : Nat → Nat) : Option V → Option V → Except Exn Bool
  | some v, some w => valueRel C r v w (f 0)
  | a, b => .ok (relNat r (count a) (count b))

/-- What the operators and the hash of indirect.h do. -/
def qstep (C : TCmp V) (f : Nat → Nat) (σ : Boxes L A V) : Query L V → Result L A V
  | .eq x y =>
    match σ x, σ y with
    | some a, some b => answer σ .bool (qeq C f a.val b.val)
    | _, _ => .illegal
  | .cmp x y =>
    match σ x, σ y with
    | some a, some b => answer σ .ordering (qcmp C f a.val b.val)
    | _, _ => .illegal
  | .eqU x w =>
    match σ x with
    | some a => answer σ .bool (qeq C f a.val (some w))
    | none => .illegal
  | .cmpU x w =>
    match σ x with
    | some a => answer σ .ordering (qcmp C f a.val (some w))
    | none => .illegal
  | .hash x =>
    match σ x with
    | some a => answer σ .hash (qhash C f a.val)
    | none => .illegal

/-- The objects that it names. -/
def qoperands : Query L V → List L
  | .eq x y => [x, y]
  | .cmp x y => [x, y]
  | .eqU x _ => [x]
  | .cmpU x _ => [x]
  | .hash x => [x]

/-- What the operators and the hash of indirect_cxx14.h do. -/
def qstep14 (C : TCmp V) (f : Nat → Nat) (σ : Boxes L A V) : Query14 L V → Result L A V
  | .rel r x y =>
    match σ x, σ y with
    | some a, some b => answer σ .bool (qrel C r f a.val b.val)
    | _, _ => .illegal
  | .relIU r x w =>
    match σ x with
    | some a => answer σ .bool (qrel C r f a.val (some w))
    | none => .illegal
  | .relUI r w x =>
    match σ x with
    | some a => answer σ .bool (qrel C r f (some w) a.val)
    | none => .illegal
  | .hash x =>
    match σ x with
    | some a => answer σ .hash (qhash C f a.val)
    | none => .illegal

/-- The objects that it names. -/
def qoperands14 : Query14 L V → List L
  | .rel _ x y => [x, y]
  | .relIU _ x _ => [x]
  | .relUI _ _ x => [x]
  | .hash x => [x]

/-- All objects that are named are alive. -/
def AllLive (σ : Boxes L A V) (l : List L) : Prop := ∀ z ∈ l, Live σ z

/-- A call of a member, an operator or the hash of indirect.h. -/
def estep (tr : ATraits A R) (T : TSpec V X) (C : TCmp V) (mem : Bool) (f : Nat → Nat) (σ : Boxes L A V) :
    Either (Op L A V X) (Query L V) → Result L A V
  | .call o => step tr T mem (f 0) σ o
  | .query q => qstep C f σ q

/-- The preconditions. -/
def ELegal (tr : ATraits A R) (σ : Boxes L A V) : Either (Op L A V X) (Query L V) → Prop
  | .call o => Legal tr σ o
  | .query q => AllLive σ (qoperands q)

/-- The objects that a call names. -/
def eoperands : Either (Op L A V X) (Query L V) → List L
  | .call o => operands o
  | .query q => qoperands q

/-- The objects that a call may change: comparisons and hashes change nothing. -/
def echanges {O : Type} {Q : Type} (changes : O → List L) : Either O Q → List L
  | .call o => changes o
  | .query _ => []

/-- A call of a member, an operator or the hash of indirect_cxx14.h. -/
def estep14 (tr : ATraits A R) (T : TSpec V X) (C : TCmp V) (mem : Bool) (f : Nat → Nat) (σ : Boxes L A V) :
    Either (Op L A V X) (Query14 L V) → Result L A V
  | .call o => step tr T.cxx14 mem (f 0) σ o
  | .query q => qstep14 C f σ q

/-- The preconditions. -/
def ELegal14 (tr : ATraits A R) (σ : Boxes L A V) : Either (Op L A V X) (Query14 L V) → Prop
  | .call o => Legal tr σ o
  | .query q => AllLive σ (qoperands14 q)

/-- The objects that a call names. -/
def eoperands14 : Either (Op L A V X) (Query14 L V) → List L
  | .call o => operands o
  | .query q => qoperands14 q

/-- What a query returned or threw is what `r` says, and no object changed. -/
def IsAnswer (σ : Boxes L A V) (r : Result L A V) : Seen (Out L A V) → Prop
  | .ret out => r = .ret out σ
  | .exn x => r = .threw x σ

/-- Every entry of `log` is an answer of the query that was asked then, on the values `σ`.  `ask log` is the query that is asked
after `log`; `step` is what queries do. -/
def Answered {Q : Type} (step : (Nat → Nat) → Boxes L A V → Q → Result L A V) (ask : List (Seen (Out L A V)) → Option Q)
    (σ : Boxes L A V) (log : List (Seen (Out L A V))) : Prop :=
  ∀ before answer after, log = before ++ answer :: after → ∃ q f, ask before = some q ∧ IsAnswer σ (step f σ q) answer

end
end Verif.Spec
