import Verif.Spec.Indirect14
import Verif.Spec.Polymorphic14

/-!
# Owned types that cannot be told apart

Two types of values, `V` and `W`, and a relation between them: which values stand for the same thing.
-/

set_option autoImplicit false

namespace Verif.Spec.Opaque
open Verif

section
variable {L A R B B' α β : Type}

/-- Storage with related contents: allocated on both sides or on neither, from the same memory resource. -/
def AlikeCell (RB : B → B' → Prop) : Option (Cell R B) → Option (Cell R B') → Prop
  | none, none => True
  | some c, some c' => c.arena = c'.arena ∧ RB c.body c'.body
  | _, _ => False

/-- States that differ only in the contents of storage, which are related.  The owners are the same, with the same pointers and allocators; the same blocks are allocated; the same allocations,
constructions, assignments and destructions have happened. -/
structure Alike (RB : B → B' → Prop) (s : St L A R B) (s' : St L A R B') : Prop where
  hs : s.hs = s'.hs
  heap : ∀ p, AlikeCell RB (s.heap p) (s'.heap p)
  trace : s.trace = s'.trace
  env : s.env = s'.env
  ai : s.ai = s'.ai
  ti : s.ti = s'.ti

/-- Outcomes of the same kind, with related results, the same exceptions, and states that are alike. -/
def AlikeRes (RB : B → B' → Prop) (ρ : α → β → Prop) : Res (St L A R B) α → Res (St L A R B') β → Prop
  | .ok a s, .ok b s' => ρ a b ∧ Alike RB s s'
  | .threw e s, .threw e' s' => e = e' ∧ Alike RB s s'
  | .terminated, .terminated => True
  | .ub u, .ub u' => u = u'
  | .diverged, .diverged => True
  | _, _ => False

/-- In states that are alike the computations have outcomes that are alike. -/
def AlikeM (RB : B → B' → Prop) (ρ : α → β → Prop) (m : M (St L A R B) α) (m' : M (St L A R B') β) : Prop :=
  ∀ s s', Alike RB s s' → AlikeRes RB ρ (m s) (m' s')

end

section
variable {L A R Ty V W X : Type} (Rv : V → W → Prop)

/-- Raw storage on both sides, or related objects. -/
def ObjRel : Obj V → Obj W → Prop
  | none, none => True
  | some v, some w => Rv v w
  | _, _ => False

/-- Raw storage on both sides, or control blocks of the same type with related objects.  Every derived type has its own relation. -/
def CBRel (Rt : Ty → V → W → Prop) : PBody Ty V → PBody Ty W → Prop
  | none, none => True
  | some c, some c' => c.ty = c'.ty ∧ c.p = c'.p ∧ ObjRel (Rt c.ty) c.u c'.u
  | _, _ => False

/-- Types whose functions cannot be told apart. -/
structure AlikeT (T : TOps (St L A R (Obj V)) A X) (T' : TOps (St L A R (Obj W)) A X) : Prop where
  make : ∀ a d xs, AlikeM (ObjRel Rv) Eq (T.make a d xs) (T'.make a d xs)
  copyCtor : ∀ a d q, AlikeM (ObjRel Rv) Eq (T.copyCtor a d q) (T'.copyCtor a d q)
  moveCtor : ∀ a d q, AlikeM (ObjRel Rv) Eq (T.moveCtor a d q) (T'.moveCtor a d q)
  copyAssign : ∀ d q, AlikeM (ObjRel Rv) Eq (T.copyAssign d q) (T'.copyAssign d q)
  moveAssign : ∀ d q, AlikeM (ObjRel Rv) Eq (T.moveAssign d q) (T'.moveAssign d q)
  assignArg : ∀ d x, AlikeM (ObjRel Rv) Eq (T.assignArg d x) (T'.assignArg d x)
  dtor : ∀ a p, AlikeM (ObjRel Rv) Eq (T.dtor a p) (T'.dtor a p)
  assignable : T.assignable = T'.assignable
  copyAssignable : T.copyAssignable = T'.copyAssignable

/-- The same for derived types. -/
structure AlikeP (Rt : Ty → V → W → Prop) (P : POps (St L A R (PBody Ty V)) A Ty X) (P' : POps (St L A R (PBody Ty W)) A Ty X) : Prop where
  base : P.base = P'.base
  make : ∀ ty a d xs, AlikeM (CBRel Rt) Eq (P.make ty a d xs) (P'.make ty a d xs)
  copyCtor : ∀ ty a d q, AlikeM (CBRel Rt) Eq (P.copyCtor ty a d q) (P'.copyCtor ty a d q)
  moveCtor : ∀ ty a d q, AlikeM (CBRel Rt) Eq (P.moveCtor ty a d q) (P'.moveCtor ty a d q)
  dtor : ∀ ty a p, AlikeM (CBRel Rt) Eq (P.dtor ty a p) (P'.dtor ty a p)
  block : ∀ a q m m', AlikeM (CBRel Rt) Eq m m' → AlikeM (CBRel Rt) Eq (P.block a q m) (P'.block a q m')

/-- The same calls; clients that modify objects do it in related ways. -/
inductive AlikeOp : Op L A V X → Op L A W X → Prop
  | make (x : L) (a : Option A) (c : Ctor L X) : AlikeOp (.make x a c) (.make x a c)
  | copy (x y : L) : AlikeOp (.copy x y) (.copy x y)
  | copyA (x : L) (a : A) (y : L) : AlikeOp (.copyA x a y) (.copyA x a y)
  | move (x y : L) : AlikeOp (.move x y) (.move x y)
  | moveA (x : L) (a : A) (y : L) : AlikeOp (.moveA x a y) (.moveA x a y)
  | destroy (x : L) : AlikeOp (.destroy x) (.destroy x)
  | assignCopy (x y : L) : AlikeOp (.assignCopy x y) (.assignCopy x y)
  | assignMove (x y : L) : AlikeOp (.assignMove x y) (.assignMove x y)
  | assignFrom (x : L) (u : Src L X) : AlikeOp (.assignFrom x u) (.assignFrom x u)
  | deref (x : L) : AlikeOp (.deref x) (.deref x)
  | arrow (x : L) : AlikeOp (.arrow x) (.arrow x)
  | modify (x : L) (f : V → V) (g : W → W) (h : ∀ v w, Rv v w → Rv (f v) (g w)) : AlikeOp (.modify x f) (.modify x g)
  | valueless (x : L) : AlikeOp (.valueless x) (.valueless x)
  | getAllocator (x : L) : AlikeOp (.getAllocator x) (.getAllocator x)
  | swap (x y : L) : AlikeOp (.swap x y) (.swap x y)
  | friendSwap (x y : L) : AlikeOp (.friendSwap x y) (.friendSwap x y)

/-- The same for `polymorphic`. -/
inductive AlikePOp (Rt : Ty → V → W → Prop) : POp L A Ty V X → POp L A Ty W X → Prop
  | make (x : L) (a : Option A) (c : PCtor L Ty X) : AlikePOp Rt (.make x a c) (.make x a c)
  | copy (x y : L) : AlikePOp Rt (.copy x y) (.copy x y)
  | copyA (x : L) (a : A) (y : L) : AlikePOp Rt (.copyA x a y) (.copyA x a y)
  | move (x y : L) : AlikePOp Rt (.move x y) (.move x y)
  | moveA (x : L) (a : A) (y : L) : AlikePOp Rt (.moveA x a y) (.moveA x a y)
  | destroy (x : L) : AlikePOp Rt (.destroy x) (.destroy x)
  | assignCopy (x y : L) : AlikePOp Rt (.assignCopy x y) (.assignCopy x y)
  | assignMove (x y : L) : AlikePOp Rt (.assignMove x y) (.assignMove x y)
  | deref (x : L) : AlikePOp Rt (.deref x) (.deref x)
  | arrow (x : L) : AlikePOp Rt (.arrow x) (.arrow x)
  | modify (x : L) (f : Ty → V → V) (g : Ty → W → W) (h : ∀ ty v w, Rt ty v w → Rt ty (f ty v) (g ty w)) : AlikePOp Rt (.modify x f) (.modify x g)
  | valueless (x : L) : AlikePOp Rt (.valueless x) (.valueless x)
  | getAllocator (x : L) : AlikePOp Rt (.getAllocator x) (.getAllocator x)
  | swap (x y : L) : AlikePOp Rt (.swap x y) (.swap x y)
  | friendSwap (x y : L) : AlikePOp Rt (.friendSwap x y) (.friendSwap x y)

/-- The same results; values are related. -/
inductive AlikeOut {V W : Type} (Rv : V → W → Prop) : Out L A V → Out L A W → Prop
  | unit : AlikeOut Rv .unit .unit
  | self (x : L) : AlikeOut Rv (.self x) (.self x)
  | value (v : V) (w : W) (h : Rv v w) : AlikeOut Rv (.value v) (.value w)
  | bool (b : Bool) : AlikeOut Rv (.bool b) (.bool b)
  | alloc (a : A) : AlikeOut Rv (.alloc a) (.alloc a)
  | ordering (c : Cmp) : AlikeOut Rv (.ordering c) (.ordering c)
  | hash (h : Nat) : AlikeOut Rv (.hash h) (.hash h)

/-- Values of derived types: the same type, related values. -/
def TyRel (Rt : Ty → V → W → Prop) (x : Ty × V) (y : Ty × W) : Prop := x.1 = y.1 ∧ Rt x.1 x.2 y.2

/-- Constructors that fail with the same exception or make related values. -/
def ExceptRel : Except Exn V → Except Exn W → Prop
  | .ok v, .ok w => Rv v w
  | .error e, .error e' => e = e'
  | _, _ => False

/-- Types that own nothing whose functions respect the relation. -/
structure Respects (T : TSpec V X) (T' : TSpec W X) : Prop where
  make : ∀ xs n, ExceptRel Rv (T.make xs n) (T'.make xs n)
  copy : ∀ v w n, Rv v w → ExceptRel Rv (T.copy v n) (T'.copy w n)
  move : ∀ v w n, Rv v w → ExceptRel Rv (T.move v n).1 (T'.move w n).1 ∧ Rv (T.move v n).2 (T'.move w n).2
  copyAssign : ∀ d d' v w n, Rv d d' → Rv v w → (T.copyAssign d v n).1 = (T'.copyAssign d' w n).1 ∧ Rv (T.copyAssign d v n).2 (T'.copyAssign d' w n).2
  moveAssign : ∀ d d' v w n, Rv d d' → Rv v w →
    (T.moveAssign d v n).1 = (T'.moveAssign d' w n).1 ∧ Rv (T.moveAssign d v n).2.1 (T'.moveAssign d' w n).2.1 ∧ Rv (T.moveAssign d v n).2.2 (T'.moveAssign d' w n).2.2
  assignArg : ∀ d d' x n, Rv d d' → (T.assignArg d x n).1 = (T'.assignArg d' x n).1 ∧ Rv (T.assignArg d x n).2 (T'.assignArg d' x n).2
  assignable : T.assignable = T'.assignable
  copyAssignable : T.copyAssignable = T'.copyAssignable

/-- The same for derived types. -/
structure RespectsP (Rt : Ty → V → W → Prop) (P : PSpec Ty V X) (P' : PSpec Ty W X) : Prop where
  base : P.base = P'.base
  make : ∀ ty xs n, ExceptRel (Rt ty) (P.make ty xs n) (P'.make ty xs n)
  copy : ∀ ty v w n, Rt ty v w → ExceptRel (Rt ty) (P.copy ty v n) (P'.copy ty w n)
  move : ∀ ty v w n, Rt ty v w → ExceptRel (Rt ty) (P.move ty v n).1 (P'.move ty w n).1 ∧ Rt ty (P.move ty v n).2 (P'.move ty w n).2

/-- Lists of the same length with related elements. -/
inductive Each {α β : Type} (ρ : α → β → Prop) : List α → List β → Prop
  | nil : Each ρ [] []
  | cons {a : α} {b : β} {as : List α} {bs : List β} (h : ρ a b) (t : Each ρ as bs) : Each ρ (a :: as) (b :: bs)

/-- The same exception, or related results. -/
inductive AlikeSeen {O O' : Type} (ρ : O → O' → Prop) : Seen O → Seen O' → Prop
  | ret (o : O) (o' : O') (h : ρ o o') : AlikeSeen ρ (.ret o) (.ret o')
  | exn (e : Exn) : AlikeSeen ρ (.exn e) (.exn e)

/-- Histories that end in the same way: the client sees the same of every call, up to related values, and the states at the end are alike. -/
def AlikeRun {B B' O O' : Type} (RB : B → B' → Prop) (ρ : O → O' → Prop) : Run (St L A R B) O → Run (St L A R B') O' → Prop
  | .done log s, .done log' s' => Each (AlikeSeen ρ) log log' ∧ Alike RB s s'
  | .terminated log, .terminated log' => Each (AlikeSeen ρ) log log'
  | .ub u, .ub u' => u = u'
  | .diverged, .diverged => True
  | _, _ => False

/-- The same histories of calls in the same environments; clients modify objects in related ways. -/
def AlikeCalls : List (Op L A V X × Env) → List (Op L A W X × Env) → Prop := Each fun c c' => AlikeOp Rv c.1 c'.1 ∧ c.2 = c'.2

/-- The same for `polymorphic`. -/
def AlikePCalls (Rt : Ty → V → W → Prop) : List (POp L A Ty V X × Env) → List (POp L A Ty W X × Env) → Prop := Each fun c c' => AlikePOp Rt c.1 c'.1 ∧ c.2 = c'.2

/-- The functions of a type establish and keep an invariant of its values, also when they throw. -/
structure KeepsT {V X : Type} (Q : V → Prop) (T : TSpec V X) : Prop where
  make : ∀ xs n v, T.make xs n = .ok v → Q v
  copy : ∀ v n w, Q v → T.copy v n = .ok w → Q w
  move : ∀ v n w, Q v → (T.move v n).1 = .ok w → Q w
  moveLeft : ∀ v n, Q v → Q (T.move v n).2
  copyAssign : ∀ d v n, Q d → Q v → Q (T.copyAssign d v n).2
  moveAssign : ∀ d v n, Q d → Q v → Q (T.moveAssign d v n).2.1
  moveAssignLeft : ∀ d v n, Q d → Q v → Q (T.moveAssign d v n).2.2
  assignArg : ∀ d x n, Q d → Q (T.assignArg d x n).2

/-- The same for derived types; every type has its own invariant. -/
structure KeepsP {Ty V X : Type} (Q : Ty → V → Prop) (P : PSpec Ty V X) : Prop where
  make : ∀ ty xs n v, P.make ty xs n = .ok v → Q ty v
  copy : ∀ ty v n w, Q ty v → P.copy ty v n = .ok w → Q ty w
  move : ∀ ty v n w, Q ty v → (P.move ty v n).1 = .ok w → Q ty w
  moveLeft : ∀ ty v n, Q ty v → Q ty (P.move ty v n).2

/-- Clients keep the invariant when they modify an object. -/
def OpKeeps {V : Type} (Q : V → Prop) : Op L A V X → Prop
  | .modify _ f => ∀ v, Q v → Q (f v)
  | _ => True

/-- The same for `polymorphic`. -/
def POpKeeps {Ty V : Type} (Q : Ty → V → Prop) : POp L A Ty V X → Prop
  | .modify _ f => ∀ ty v, Q ty v → Q ty (f ty v)
  | _ => True

end
end Verif.Spec.Opaque
