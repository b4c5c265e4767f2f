import Verif.Vector
import Verif.Spec.Composite

/-!
# Specification of vectors of `indirect` or `polymorphic`

First what constructors and assignments of elements do, as values (`Rules`); then vectors as lists of such values, what each
operation of a vector does to them, legal operations, and reachable states.
-/

set_option autoImplicit false

namespace Verif.Spec
open Verif

/-! ## Elements -/

/-- What the functions of an element do to values: allocator and owned value, of elements and variables. -/
structure Rules (A W : Type) where
  /-- an element made from arguments -/
  Make : Box A W → Prop
  /-- source, copy -/
  Copy : Box A W → Box A W → Prop
  /-- source, new element, what is left of the source -/
  Move : Box A W → Box A W → Box A W → Prop
  /-- source, what is left of it if an exception is thrown -/
  MoveThrew : Box A W → Box A W → Prop
  /-- target, source, target afterwards -/
  Assign : Box A W → Box A W → Box A W → Prop
  /-- target, target afterwards -/
  AssignThrew : Box A W → Box A W → Prop
  /-- target, source, both afterwards -/
  MoveAssign : Box A W → Box A W → Box A W → Box A W → Prop
  /-- target, source, source afterwards (the target does not change) -/
  MoveAssignThrew : Box A W → Box A W → Box A W → Prop
  /-- target, source of a move assignment that may end the program -/
  Terminates : Box A W → Box A W → Prop

section
variable {L A R W X S I F : Type} [DecidableEq L]

/-- Vectors that construct their elements with no allocator: `std::vector<indirect<T, A>>`. -/
def Rules.plain (tr : ATraits A R) (T : TSpec W X) : Rules A W where
  Make b := b.val.isSome
  Copy b b' := CopyOf tr T b b'
  Move b b' r := b' = b ∧ r = ⟨b.alloc, none⟩
  MoveThrew _ _ := False
  Assign a b a' := AssignedCopy tr T a b a'
  AssignThrew a a' := a'.alloc = a.alloc ∧ a'.val.isSome = a.val.isSome
  MoveAssign a b a' b' := AssignedMove tr T a b a' b'
  MoveAssignThrew a b b' := tr.eq a.alloc b.alloc = false ∧ b'.alloc = b.alloc ∧ b'.val.isSome = b.val.isSome
  Terminates a b := tr.eq a.alloc b.alloc = false ∧ (tr.pocma || tr.alwaysEqual) = true

/-- Vectors that construct their elements with their allocator `α`: `std::pmr::vector<pmr::indirect<T>>`. -/
def Rules.scoped (α : A) (tr : ATraits A R) (T : TSpec W X) : Rules A W where
  Make b := b.alloc = α ∧ b.val.isSome
  Copy b b' := b'.alloc = α ∧ match b.val with
    | none => b'.val = none
    | some v => ∃ n w, T.copy v n = .ok w ∧ b'.val = some w
  Move b b' r := b'.alloc = α ∧ r.alloc = b.alloc ∧
    if (tr.alwaysEqual || tr.eq α b.alloc) = true then b'.val = b.val ∧ r.val = none
    else match b.val with
      | none => b'.val = none ∧ r.val = none
      | some v => ∃ w v' n, T.move v n = (.ok w, v') ∧ b'.val = some w ∧ r.val = some v'
  MoveThrew b r := (tr.alwaysEqual || tr.eq α b.alloc) = false ∧ r.alloc = b.alloc ∧ r.val.isSome = b.val.isSome
  Assign := (Rules.plain tr T).Assign
  AssignThrew := (Rules.plain tr T).AssignThrew
  MoveAssign := (Rules.plain tr T).MoveAssign
  MoveAssignThrew := (Rules.plain tr T).MoveAssignThrew
  Terminates := (Rules.plain tr T).Terminates

/-- The functions of an element type follow the rules; each call changes only its target, and the source of a move. -/
structure Follows (ρ : Rules A W) (abs : S → Boxes L A W) (Ok : S → Prop) (H : Holder L S W I F) : Prop where
  make : ∀ {s x} (i : I) (e : Env), Ok s → abs s x = none →
    Ends (H.make x i e s) (fun s' => Ok s' ∧ ∃ b, ρ.Make b ∧ abs s' = put (abs s) x b)
      (fun s' => Ok s' ∧ abs s' = abs s) False
  copy : ∀ {s x y b} (e : Env), Ok s → abs s x = none → abs s y = some b →
    Ends (H.copy x y e s) (fun s' => Ok s' ∧ ∃ b', ρ.Copy b b' ∧ abs s' = put (abs s) x b')
      (fun s' => Ok s' ∧ abs s' = abs s) False
  move : ∀ {s x y b} (e : Env), Ok s → abs s x = none → abs s y = some b →
    Ends (H.move x y e s) (fun s' => Ok s' ∧ ∃ b' r, ρ.Move b b' r ∧ abs s' = put (put (abs s) y r) x b')
      (fun s' => Ok s' ∧ H.nothrowMove = false ∧ ∃ r, ρ.MoveThrew b r ∧ abs s' = put (abs s) y r) False
  assignCopy : ∀ {s x y a b} (e : Env), Ok s → x ≠ y → abs s x = some a → abs s y = some b →
    Ends (H.assignCopy x y e s) (fun s' => Ok s' ∧ ∃ a', ρ.Assign a b a' ∧ abs s' = put (abs s) x a')
      (fun s' => Ok s' ∧ ∃ a', ρ.AssignThrew a a' ∧ abs s' = put (abs s) x a') False
  assignMove : ∀ {s x y a b} (e : Env), Ok s → x ≠ y → abs s x = some a → abs s y = some b →
    Ends (H.assignMove x y e s)
      (fun s' => Ok s' ∧ ∃ a' b', ρ.MoveAssign a b a' b' ∧ abs s' = put (put (abs s) y b') x a')
      (fun s' => Ok s' ∧ ∃ b', ρ.MoveAssignThrew a b b' ∧ abs s' = put (abs s) y b') (ρ.Terminates a b)
  destroy : ∀ {s x b} (e : Env), Ok s → abs s x = some b →
    Ends (H.destroy x e s) (fun s' => Ok s' ∧ abs s' = drop (abs s) x) (fun _ => False) False
  modify : ∀ {s x a v} (f : F) (e : Env), Ok s → abs s x = some ⟨a, some v⟩ →
    Ends (H.modify x f e s) (fun s' => Ok s' ∧ abs s' = put (abs s) x ⟨a, some (H.app f v)⟩) (fun _ => False) False

/-! Elements with their owned objects: value and address. -/

/-- What elements own, and where it is. -/
def placed (abs : S → Boxes L A W) (at_ : S → L → Option Addr) (s : S) : Boxes L A (W × Addr) := fun l =>
  (abs s l).map fun b => ⟨b.alloc, b.val.bind fun v => (at_ s l).map fun p => (v, p)⟩

/-- Without the address. -/
def unplaced (b : Box A (W × Addr)) : Box A W := ⟨b.alloc, b.val.map (·.1)⟩

/-- Like `Rules.plain`; in addition moved objects stay where they are: a move, and a move assignment between equal
allocators, hand over the very object. -/
def Rules.placed (tr : ATraits A R) (T : TSpec W X) : Rules A (W × Addr) where
  Make b := b.val.isSome
  Copy b b' := CopyOf tr T (unplaced b) (unplaced b')
  Move b b' r := b' = b ∧ r = ⟨b.alloc, none⟩
  MoveThrew _ _ := False
  Assign a b a' := AssignedCopy tr T (unplaced a) (unplaced b) (unplaced a')
  AssignThrew a a' := a'.alloc = a.alloc ∧ a'.val.isSome = a.val.isSome
  MoveAssign a b a' b' := AssignedMove tr T (unplaced a) (unplaced b) (unplaced a') (unplaced b') ∧
    (tr.eq a.alloc b.alloc = true → a'.val = b.val)
  MoveAssignThrew a b b' := tr.eq a.alloc b.alloc = false ∧ b'.alloc = b.alloc ∧ b'.val.isSome = b.val.isSome
  Terminates a b := tr.eq a.alloc b.alloc = false ∧ (tr.pocma || tr.alwaysEqual) = true

/-- The same functions, for elements with addresses. -/
def _root_.Verif.Holder.placed (H : Holder L S W I F) : Holder L S (W × Addr) I F where
  make := H.make
  copy := H.copy
  move := H.move
  assignCopy := H.assignCopy
  assignMove := H.assignMove
  destroy := H.destroy
  modify := H.modify
  app f w := (H.app f w.1, w.2)
  nothrowMove := H.nothrowMove

end

/-! ## Vectors as lists -/

/-- The vectors and variables of a program, as values. -/
structure VState (C A W : Type) where
  lists : C → Option (List (Box A W))
  vars : C → Option (Box A W)

section
variable {C S A R W X I J F : Type} [DecidableEq C]

/-- What an expression refers to. -/
def VState.get (σ : VState C A W) : Vector.Ref C → Option (Box A W)
  | .var y => σ.vars y
  | .at x i => (σ.lists x).bind (·[i]?)

/-- The vector `x` becomes `l`. -/
def VState.setList (σ : VState C A W) (x : C) (l : Option (List (Box A W))) : VState C A W :=
  { σ with lists := fun z => if z = x then l else σ.lists z }

/-- The variable `y` becomes `b`. -/
def VState.setVar (σ : VState C A W) (y : C) (b : Option (Box A W)) : VState C A W :=
  { σ with vars := fun z => if z = y then b else σ.vars z }

/-- What the expression refers to becomes `b`. -/
def VState.set (σ : VState C A W) (r : Vector.Ref C) (b : Box A W) : VState C A W :=
  match r with
  | .var y => σ.setVar y (some b)
  | .at x i => σ.setList x ((σ.lists x).map (·.set i b))

/-- The values of a machine state. -/
def vstate (abs : S → Boxes (Vector.Cell C) A W) (s : Vector.VecS C S) : VState C A W where
  lists x := (s.2 x).map fun v => (List.range v.size).filterMap fun i => abs s.1 (.elem v.buf i)
  vars y := abs s.1 (.var y)

/-- Lists of the same length, related elementwise. -/
def Each {α β : Type} (P : α → β → Prop) (l : List α) (m : List β) : Prop :=
  m.length = l.length ∧ ∀ (i : Nat) a b, l[i]? = some a → m[i]? = some b → P a b

/-- There is room for one more element, so that `push_back` does not reallocate. -/
def Room (s : Vector.VecS C S) (x : C) : Prop := ∃ v, s.2 x = some v ∧ v.size < v.cap

/-- The capacity. -/
def capacity (s : Vector.VecS C S) (x : C) : Nat := ((s.2 x).map (·.cap)).getD 0

/-- The elements after a reallocation: moved if they are nothrow move constructible, otherwise copied. -/
def Relocated (ρ : Rules A W) (H : Holder (Vector.Cell C) S W I F) (bs bs' : List (Box A W)) : Prop :=
  if H.nothrowMove then Each (fun b b' => ∃ r, ρ.Move b b' r) bs bs' else Each ρ.Copy bs bs'

/-- A new element `b` from an argument, and the vectors and variables afterwards (without the new element). -/
def ArgMade (ρ : Rules A W) (σ : VState C A W) (b : Box A W) (σ' : VState C A W) : Vector.Arg C I → Prop
  | .make _ => ρ.Make b ∧ σ' = σ
  | .copy r => ∃ c, σ.get r = some c ∧ ρ.Copy c b ∧ σ' = σ
  | .move r => ∃ c q, σ.get r = some c ∧ ρ.Move c b q ∧ σ' = σ.set r q

/-- An exception from the construction of an element: only the source of a move may have changed. -/
def ArgThrew (ρ : Rules A W) (σ σ' : VState C A W) : Vector.Arg C I → Prop
  | .make _ => σ' = σ
  | .copy _ => σ' = σ
  | .move r => σ' = σ ∨ ∃ c q, σ.get r = some c ∧ ρ.MoveThrew c q ∧ σ' = σ.set r q

/-- Elements move assigned down: the first target, the elements that follow, the results, and what is left in the place of the
last. -/
inductive Shifted (ρ : Rules A W) : Box A W → List (Box A W) → List (Box A W) → Box A W → Prop
  | nil (t : Box A W) : Shifted ρ t [] [] t
  | snoc {t u u' b b' : Box A W} {bs res : List (Box A W)} : Shifted ρ t bs res u → ρ.MoveAssign u b u' b' →
      Shifted ρ t (bs ++ [b]) (res ++ [u']) b'

/-- What the elements of a vector are after it was assigned another: those in place are assigned, the others copied; all
copied if there was not enough capacity. -/
def ListAssigned (ρ : Rules A W) (cap : Nat) (as bs as' : List (Box A W)) : Prop :=
  as'.length = bs.length ∧ ∀ (i : Nat) b a', bs[i]? = some b → as'[i]? = some a' →
    match as[i]? with
    | some a => if cap < bs.length then ρ.Copy b a' else ρ.Assign a b a'
    | none => ρ.Copy b a'

/-- An assignment of vectors that did not come to its end: each element is as before, or was assigned the corresponding one, or
is what a failed assignment of it left. -/
def PartlyAssigned (ρ : Rules A W) (as bs as' : List (Box A W)) : Prop :=
  as'.length = as.length ∧ ∀ (i : Nat) a a', as[i]? = some a → as'[i]? = some a' →
    a' = a ∨ ∃ b, bs[i]? = some b ∧ (ρ.Assign a b a' ∨ ρ.AssignThrew a a')

/-- Preconditions. -/
def VecLegal (σ : VState C A W) : Vector.VecOp C I J F → Prop
  | .make y _ => σ.vars y = none
  | .destroyVar y => ∃ b, σ.vars y = some b
  | .empty x => σ.lists x = none
  | .copy x y => σ.lists x = none ∧ ∃ bs, σ.lists y = some bs
  | .move x y => σ.lists x = none ∧ ∃ bs, σ.lists y = some bs
  | .destroy x => ∃ bs, σ.lists x = some bs
  | .push x (.make _) => ∃ bs, σ.lists x = some bs
  | .push x (.copy r) => (∃ bs, σ.lists x = some bs) ∧ ∃ b, σ.get r = some b
  | .push x (.move r) => (∃ bs, σ.lists x = some bs) ∧ ∃ b, σ.get r = some b
  | .pop x => ∃ bs, σ.lists x = some bs ∧ 0 < bs.length
  | .reserve x _ => ∃ bs, σ.lists x = some bs
  | .erase x i => ∃ bs, σ.lists x = some bs ∧ i < bs.length
  | .assignCopy x y => (∃ as, σ.lists x = some as) ∧ ∃ bs, σ.lists y = some bs
  | .assignMove x y => x ≠ y ∧ (∃ as, σ.lists x = some as) ∧ ∃ bs, σ.lists y = some bs
  | .swap x y => (∃ as, σ.lists x = some as) ∧ ∃ bs, σ.lists y = some bs
  | .modify r _ => ∃ a v, σ.get r = some ⟨a, some v⟩

/-- The allocator of the vectors returns a buffer that no vector has. -/
def FreshBuf (s : Vector.VecS C S) (B : Vector.Buf) : Prop := ∀ z v, s.2 z = some v → v.buf ≠ B.buf

/-- The constructors of variables: they make the variable and nothing else. -/
def Makes (abs : S → Boxes (Vector.Cell C) A W) (Ok : S → Prop) (mk : C → J → Env → M S Unit) : Prop :=
  ∀ {s y} (j : J) (e : Env), Ok s → abs s (.var y) = none →
    Ends (mk y j e s) (fun s' => Ok s' ∧ ∃ b, abs s' = put (abs s) (.var y) b) (fun s' => Ok s' ∧ abs s' = abs s) False

end
end Verif.Spec

namespace Verif.Vector
open Spec
section
variable {C S A W I J F : Type} [DecidableEq C]

/-- States reachable from `init`, without vectors, by legal operations, in any environment, including after exceptions. -/
inductive Reach (H : Holder (Cell C) S W I F) (mk : C → J → Env → M S Unit) (abs : S → Boxes (Cell C) A W) (init : S) :
    VecS C S → Prop
  | init : Reach H mk abs init (init, fun _ => none)
  | ret {s s' : VecS C S} (o : VecOp C I J F) (B : Buf) (es : Nat → Nat → Env) : Reach H mk abs init s →
      VecLegal (vstate abs s) o → FreshBuf s B → call H mk o B es s = .ok () s' → Reach H mk abs init s'
  | threw {s s' : VecS C S} (o : VecOp C I J F) (B : Buf) (es : Nat → Nat → Env) (e : Exn) : Reach H mk abs init s →
      VecLegal (vstate abs s) o → FreshBuf s B → call H mk o B es s = .threw e s' → Reach H mk abs init s'

end
end Verif.Vector
