import Verif.NodeProg
import Verif.Spec.Tree

/-!
# Specification of programs with recursive nodes

A world gives every variable the tree it holds.  `World` says that a machine state is such a world;
`Legal` and `Step` say, in terms of trees alone, which statements are allowed and what they do.
-/

set_option autoImplicit false

namespace Verif

namespace Tree
variable {A V : Type}

/-- The tree reached by a sequence of member accesses. -/
def at' : Tree A V → List Nat → Tree A V
  | t, [] => t
  | node _ _ _ ks, k :: r => (ks k).at' r
  | _, _ :: _ => absent

/-- The tree with the part reached by a sequence of member accesses replaced by `u`. -/
def put : Tree A V → List Nat → Tree A V → Tree A V
  | _, [], u => u
  | node p a v ks, k :: r, u => node p a v (fun j => if j = k then (ks k).put r u else ks j)
  | t, _ :: _, _ => t

/-- Every member access of the sequence is to an existing member of an existing node. -/
def Has (K : Nat) : Tree A V → List Nat → Prop
  | _, [] => True
  | node _ _ _ ks, k :: r => k < K ∧ (ks k).Has K r
  | _, _ :: _ => False

end Tree

namespace Path
variable {N : Type}

/-- Neither place is inside the tree at the other. -/
def Apart (P Q : Path N) : Prop := P.root ≠ Q.root ∨ (¬ P.steps <+: Q.steps ∧ ¬ Q.steps <+: P.steps)

end Path

namespace Node
open Verif

section
variable {N A R V X : Type} [DecidableEq N]

/-- State `s` is the world `W`: every variable holds its tree, no block is used twice, every allocated
block belongs to a tree, and no `indirect` exists outside variables and nodes. -/
structure World (res : A → R) (K : Nat) (W : N → Tree A V) (s : NSt N A R V) : Prop where
  holds : ∀ x, Holds res K s (s.hs (.var x)) (W x)
  sep : ∀ x, (W x).Sep K
  disj : ∀ x y, x ≠ y → ∀ q, (W x).Mem K q → ¬ (W y).Mem K q
  cover : ∀ q, s.heap q ≠ none → ∃ x, (W x).Mem K q
  clean : Clean K s

/-- The tree at a place. -/
def treeAt (W : N → Tree A V) (P : Path N) : Tree A V := (W P.root).at' P.steps

/-- The world with the tree at a place replaced. -/
def putAt (W : N → Tree A V) (P : Path N) (t : Tree A V) : N → Tree A V :=
  upd W P.root ((W P.root).put P.steps t)

/-- The place exists. -/
def Exists (K : Nat) (W : N → Tree A V) (P : Path N) : Prop := (W P.root).Has K P.steps

/-- An `indirect` lives at the place. -/
def Live (K : Nat) (W : N → Tree A V) (P : Path N) : Prop := Exists K W P ∧ treeAt W P ≠ .absent

/-- An `indirect` that is not valueless lives at the place. -/
def Owner (K : Nat) (W : N → Tree A V) (P : Path N) : Prop :=
  Exists K W P ∧ ∃ p a v ks, treeAt W P = .node p a v ks

/-- No `indirect` lives at the place. -/
def Empty (K : Nat) (W : N → Tree A V) (P : Path N) : Prop := Exists K W P ∧ treeAt W P = .absent

/-- The trees at the places are not deeper than `n`. -/
def Fits (K n : Nat) (W : N → Tree A V) (P : Path N) : Prop := (treeAt W P).height K ≤ n

variable (tr : ATraits A R) (T : TSpec V X) (K : Nat)

/-- Which statements are allowed in a world, with recursion depth `n`: objects are created only where there
are none; operands exist; in operations that change two places (or assign from one to another) neither
place lies inside the tree at the other, unless they are the same place; swapped allocators propagate or
are equal; trees that have to be visited are not deeper than `n`. -/
def Legal (W : N → Tree A V) (n : Nat) : NOp N A X → Prop
  | .make P _ _ => Empty K W P ∧ 0 < n
  | .copy P Q => Empty K W P ∧ Live K W Q ∧ Fits K n W Q
  | .copyA P _ Q => Empty K W P ∧ Live K W Q ∧ Fits K n W Q
  | .moveA P _ Q => Empty K W P ∧ Live K W Q ∧ Fits K n W Q ∧ P.Apart Q
  | .move P Q => Empty K W P ∧ Live K W Q ∧ P.Apart Q
  | .drop P => Live K W P ∧ Fits K n W P
  | .assign P Q => Live K W P ∧ Live K W Q ∧ Fits K n W P ∧ Fits K n W Q ∧ (P = Q ∨ P.Apart Q)
  | .moveAssign P Q => Live K W P ∧ Live K W Q ∧ Fits K n W P ∧ Fits K n W Q ∧ (P = Q ∨ P.Apart Q)
  | .swap P Q => Live K W P ∧ Live K W Q ∧ (P = Q ∨ P.Apart Q) ∧
      (tr.pocs = true ∨
        tr.eq ((treeAt W P).allocOr tr.dflt) ((treeAt W Q).allocOr tr.dflt) = true)
  | .set P _ => Live K W P ∧ 0 < n
  | .setCopy P Q => Live K W P ∧ Owner K W Q ∧ Fits K n W P ∧ Fits K n W Q ∧ (P = Q ∨ P.Apart Q)
  | .setMove P Q => Live K W P ∧ Owner K W Q ∧ Fits K n W P ∧ Fits K n W Q ∧ (P = Q ∨ P.Apart Q)

/-- The blocks of `t` are not used by any tree of the world. -/
def Fresh (W : N → Tree A V) (t : Tree A V) : Prop := ∀ q, t.Mem K q → ∀ x, ¬ (W x).Mem K q

/-- Move assignment of one optional member from another: `d` is the tree of the target, `s` that of the source, `t` and
`u` are the trees there afterwards.  If the allocators are equal, or the target was empty, the nodes themselves go from
one to the other. -/
def MemberMoved (d s t u : Tree A V) : Prop :=
  (s = .absent → t = .absent ∧ u = .absent) ∧
  (s ≠ .absent → d = .absent → t = s ∧ u = s.emptied) ∧
  (s ≠ .absent → d ≠ .absent → s.Like (MovedTo T) K t ∧ LeftOver s u ∧
    t.allocOr tr.dflt = (if tr.pocma then s.allocOr tr.dflt else d.allocOr tr.dflt) ∧
    (tr.eq (d.allocOr tr.dflt) (s.allocOr tr.dflt) = true → t = s.withAlloc (t.allocOr tr.dflt) ∧ u = s.emptied))

/-- What a statement does to the world when it completes. -/
def Step (W : N → Tree A V) : NOp N A X → (N → Tree A V) → Prop
  | .make P a us, W' => ∃ p v c, T.make (.pack us) c = .ok v ∧ (∀ x, ¬ (W x).Mem K p) ∧
      W' = putAt W P (.node p a v (fun _ => .absent))
  | .copy P Q, W' => ∃ t, (treeAt W Q).Copy (Copied T) tr.socc K
        (tr.socc ((treeAt W Q).allocOr tr.dflt)) t ∧ Fresh K W t ∧ W' = putAt W P t
  | .copyA P a Q, W' => ∃ t, (treeAt W Q).Copy (Copied T) tr.socc K a t ∧ Fresh K W t ∧ W' = putAt W P t
  | .moveA P a Q, W' => ∃ t u, (treeAt W Q).Like (MovedTo T) K t ∧ LeftOver (treeAt W Q) u ∧
      t.allocOr tr.dflt = a ∧
      (tr.alwaysEqual = true ∨ tr.eq a ((treeAt W Q).allocOr tr.dflt) = true →
        t = (treeAt W Q).withAlloc a ∧ u = (treeAt W Q).emptied) ∧
      W' = putAt (putAt W P t) Q u
  | .move P Q, W' => W' = putAt (putAt W P (treeAt W Q)) Q (treeAt W Q).emptied
  | .drop P, W' => W' = putAt W P .absent
  | .assign P Q, W' =>
    if P = Q then W' = W
    else ∃ t, (treeAt W Q).Like (Given T) K t ∧
      t.allocOr tr.dflt =
        (if tr.pocca then (treeAt W Q).allocOr tr.dflt else (treeAt W P).allocOr tr.dflt) ∧
      (InPlace tr T (treeAt W P) (treeAt W Q) → ∀ p a v ks, treeAt W P = .node p a v ks →
        ∃ b w ks', t = .node p b w ks') ∧
      (¬ InPlace tr T (treeAt W P) (treeAt W Q) →
        (treeAt W Q).Copy (Copied T) tr.socc K (t.allocOr tr.dflt) t ∧ Fresh K W t) ∧
      W' = putAt W P t
  | .moveAssign P Q, W' =>
    if P = Q then W' = W
    else ∃ t u, (treeAt W Q).Like (MovedTo T) K t ∧ LeftOver (treeAt W Q) u ∧
      t.allocOr tr.dflt =
        (if tr.pocma then (treeAt W Q).allocOr tr.dflt else (treeAt W P).allocOr tr.dflt) ∧
      (tr.eq ((treeAt W P).allocOr tr.dflt) ((treeAt W Q).allocOr tr.dflt) = true →
        t = (treeAt W Q).withAlloc (t.allocOr tr.dflt) ∧ u = (treeAt W Q).emptied) ∧
      W' = putAt (putAt W P t) Q u
  | .swap P Q, W' =>
    if P = Q then W' = W
    else
      let a := (treeAt W P).allocOr tr.dflt
      let b := (treeAt W Q).allocOr tr.dflt
      W' = putAt (putAt W P ((treeAt W Q).withAlloc (if tr.pocs then b else a))) Q
        ((treeAt W P).withAlloc (if tr.pocs then a else b))
  | .set P x, W' =>
    (∃ p a v w c ks, treeAt W P = .node p a v ks ∧ T.assignArg v x c = (none, w) ∧
      W' = putAt W P (.node p a w ks)) ∨
    (∃ a p v c, treeAt W P = .hollow a ∧ T.make (.pack [x]) c = .ok v ∧ (∀ y, ¬ (W y).Mem K p) ∧
      W' = putAt W P (.node p a v (fun _ => .absent)))
  | .setCopy P Q, W' =>
    if P = Q then ∃ p a v w c ks, treeAt W P = .node p a v ks ∧ T.copyAssign v v c = (none, w) ∧
      W' = putAt W P (.node p a w ks)
    else
      (∃ p a v w c ks ks' q b u js, treeAt W P = .node p a v ks ∧ treeAt W Q = .node q b u js ∧
        T.copyAssign v u c = (none, w) ∧ (∀ k, k < K → (js k).Like (Given T) K (ks' k)) ∧
        W' = putAt W P (.node p a w ks')) ∨
      (∃ a t, treeAt W P = .hollow a ∧ (treeAt W Q).Copy (Copied T) tr.socc K a t ∧ Fresh K W t ∧ W' = putAt W P t)
  | .setMove P Q, W' =>
    if P = Q then ∃ p a v w u c ks, treeAt W P = .node p a v ks ∧ T.moveAssign v v c = (none, w, u) ∧
      W' = putAt W P (.node p a w ks)
    else
      (∃ p a v w c ks ks' q b u u' js js', treeAt W P = .node p a v ks ∧ treeAt W Q = .node q b u js ∧
        T.moveAssign v u c = (none, w, u') ∧ (∀ k, k < K → MemberMoved tr T K (ks k) (js k) (ks' k) (js' k)) ∧
        W' = putAt (putAt W P (.node p a w ks')) Q (.node q b u' js')) ∨
      (∃ a p w c q b u u' js, treeAt W P = .hollow a ∧ treeAt W Q = .node q b u js ∧ (T.move u c).1 = .ok w ∧
        (∀ x, ¬ (W x).Mem K p) ∧
        W' = putAt (putAt W P (.node p a w js)) Q (.node q b u' (fun k => (js k).emptied)))

/-- What a statement does to the world when it throws. -/
def Failed (W : N → Tree A V) : NOp N A X → (N → Tree A V) → Prop
  | .make _ _ _, W' => W' = W
  | .copy _ _, W' => W' = W
  | .copyA _ _ _, W' => W' = W
  | .moveA _ _ Q, W' => ∃ q b v v' ks, treeAt W Q = .node q b v ks ∧ W' = putAt W Q (.node q b v' ks)
  | .move _ _, _ => False
  | .drop _, _ => False
  | .assign P Q, W' => (∃ t, t ≠ .absent ∧ W' = putAt W P t) ∧
      (¬ InPlace tr T (treeAt W P) (treeAt W Q) → W' = W)
  | .moveAssign _ Q, W' => ∃ q b v v' ks, treeAt W Q = .node q b v ks ∧ W' = putAt W Q (.node q b v' ks)
  | .swap _ _, _ => False
  | .set P _, W' => W' = W ∨ ∃ p a v w ks, treeAt W P = .node p a v ks ∧ W' = putAt W P (.node p a w ks)
  | .setCopy P _, W' => W' = W ∨
      ∃ p a v w ks ks', treeAt W P = .node p a v ks ∧ W' = putAt W P (.node p a w ks')
  | .setMove P Q, W' =>
    if P = Q then ∃ p a v w ks, treeAt W P = .node p a v ks ∧ W' = putAt W P (.node p a w ks)
    else ∃ q b u u' js js', treeAt W Q = .node q b u js ∧
      ((W' = putAt W Q (.node q b u' js) ∧ ∃ a, treeAt W P = .hollow a) ∨
        ∃ p a v w ks ks', treeAt W P = .node p a v ks ∧
          W' = putAt (putAt W P (.node p a w ks')) Q (.node q b u' js'))

/-- When `std::terminate` may be called: a move assignment that is `noexcept` although allocators that
propagate are unequal (see DESIGN.md, finding 2). -/
def MayTerminate (K : Nat) (W : N → Tree A V) : NOp N A X → Prop
  | .moveAssign P Q => (tr.pocma || tr.alwaysEqual) = true ∧
      tr.eq ((treeAt W P).allocOr tr.dflt) ((treeAt W Q).allocOr tr.dflt) = false
  | .setMove P Q => (tr.pocma || tr.alwaysEqual) = true ∧ P ≠ Q ∧
      ∃ p a v ks q b u js k, treeAt W P = .node p a v ks ∧ treeAt W Q = .node q b u js ∧ k < K ∧
        ks k ≠ .absent ∧ js k ≠ .absent ∧ tr.eq ((ks k).allocOr tr.dflt) ((js k).allocOr tr.dflt) = false
  | _ => False

end
end Node
end Verif
