import Verif.Node

/-!
# Trees of nodes

Specification vocabulary for recursive values: finite trees, what it means that a machine state holds a
tree at a place, and what it means that one tree is a copy of another.
-/

set_option autoImplicit false

namespace Verif

/-- What one `std::optional<indirect<Node>>` holds, with everything below it: nothing, a valueless
`indirect`, or an `indirect` owning the node in block `p`.  `a` is the allocator of the `indirect`, `v` the
node's payload and `kids k` what its `k`-th member holds.  (Branching is a function, so trees of every
finite depth and every number of members are covered; members from number `K` on are ignored.) -/
inductive Tree (A V : Type) where
  | absent
  | hollow (a : A)
  | node (p : Addr) (a : A) (v : V) (kids : Nat → Tree A V)

/-- The largest of `f 0, …, f (k-1)`. -/
def maxBelow (f : Nat → Nat) : Nat → Nat
  | 0 => 0
  | k + 1 => max (maxBelow f k) (f k)

namespace Tree
variable {A V : Type}

/-- Number of levels of nodes. -/
def height (K : Nat) : Tree A V → Nat
  | absent => 0
  | hollow _ => 0
  | node _ _ _ ks => 1 + maxBelow (fun k => (ks k).height K) K

/-- Is `q` the block of a node of the tree? -/
def Mem (K : Nat) : Tree A V → Addr → Prop
  | absent, _ => False
  | hollow _, _ => False
  | node p _ _ ks, q => q = p ∨ ∃ k, k < K ∧ (ks k).Mem K q

/-- No block occurs twice in the tree. -/
def Sep (K : Nat) : Tree A V → Prop
  | absent => True
  | hollow _ => True
  | node p _ _ ks =>
    (∀ k, k < K → ¬ (ks k).Mem K p) ∧
    (∀ i j, i < K → j < K → i ≠ j → ∀ q, (ks i).Mem K q → ¬ (ks j).Mem K q) ∧
    ∀ k, k < K → (ks k).Sep K

/-- The allocator of the `indirect` at the root (`a` if there is none). -/
def allocOr (a : A) : Tree A V → A
  | absent => a
  | hollow b => b
  | node _ b _ _ => b

/-- Same shape, and payloads related by `C` at corresponding positions; blocks and allocators are
ignored. -/
def Like (C : V → V → Prop) (K : Nat) : Tree A V → Tree A V → Prop
  | absent, t' => t' = absent
  | hollow _, t' => ∃ a, t' = hollow a
  | node _ _ v ks, t' => ∃ p a w ks', t' = node p a w ks' ∧ C v w ∧ ∀ k, k < K → (ks k).Like C K (ks' k)

/-- The second tree is a deep copy of the first, made with allocator `a` at the root: same shape, every
payload the result of copying the payload at that position, and below the root every allocator the one
that `select_on_container_copy_construction` gives for the allocator at that position. -/
def Copy (C : V → V → Prop) (socc : A → A) (K : Nat) : Tree A V → A → Tree A V → Prop
  | absent, _, t' => t' = absent
  | hollow _, a, t' => t' = hollow a
  | node _ _ v ks, a, t' =>
    ∃ p w ks', t' = node p a w ks' ∧ C v w ∧
      ∀ k, k < K → (ks k).Copy C socc K (socc ((ks k).allocOr a)) (ks' k)

/-- The same tree with another allocator at the root. -/
def withAlloc (b : A) : Tree A V → Tree A V
  | absent => absent
  | hollow _ => hollow b
  | node p _ v ks => node p b v ks

/-- What is left of an optional whose contents were moved away: a valueless `indirect`. -/
def emptied : Tree A V → Tree A V
  | absent => absent
  | hollow a => hollow a
  | node _ a _ _ => hollow a

end Tree

/-- `f (k-1) ++ … ++ f 0`. -/
def downFrom {E : Type} (f : Nat → List E) : Nat → List E
  | 0 => []
  | k + 1 => f k ++ downFrom f k

/-- The events of destroying a tree: the destructor of the root's node starts, the members are destroyed
in reverse order with everything below them, and the node's storage is returned to the memory resource of
the allocator of the `indirect` that owned it. -/
def Tree.teardown {A R V : Type} (res : A → R) (K : Nat) : Tree A V → List (Ev R)
  | absent => []
  | hollow _ => []
  | node p a _ ks => .destroy p :: (downFrom (fun k => (ks k).teardown res K) K ++ [.dealloc (res a) p])

namespace Node

section
variable {A V X : Type}

/-- `w` is a copy of the payload `v`. -/
def Copied (T : TSpec V X) (v w : V) : Prop := ∃ c, T.copy v c = .ok w

/-- `w` was obtained from `v` by copying, or by assigning `v` to some payload. -/
def Given (T : TSpec V X) (v w : V) : Prop :=
  (∃ c, T.copy v c = .ok w) ∨ ∃ d c, T.copyAssign d v c = (none, w)

/-- `w` is `v`, or was move-constructed from `v`. -/
def MovedTo (T : TSpec V X) (v w : V) : Prop := w = v ∨ ∃ c, (T.move v c).1 = .ok w

/-- What a move leaves in its source: a valueless `indirect`, or - if the allocators do not allow to take
over the node - the node with its payload moved from and with valueless members. -/
def LeftOver (t t' : Tree A V) : Prop :=
  t' = t.emptied ∨ ∃ q b v v' ks, t = .node q b v ks ∧ t' = .node q b v' (fun k => (ks k).emptied)

/-- Is a node assigned to when the second tree is copy-assigned to the first?  (Otherwise it is replaced.) -/
def InPlace {R : Type} (tr : ATraits A R) (T : TSpec V X) : Tree A V → Tree A V → Prop
  | .node _ a _ _, .node _ b _ _ => T.assignable = true ∧ tr.eq a b = true
  | _, _ => False

end

variable {N A R V : Type}

/-- In state `s`, an optional with contents `o` holds the tree `t`: the `indirect`s on the way have these
pointers and allocators, every node is alive in a block of the memory resource of its owner's allocator and
has this payload. -/
def Holds (res : A → R) (K : Nat) (s : NSt N A R V) : Option (Handle A) → Tree A V → Prop
  | o, .absent => o = none
  | o, .hollow a => o = some ⟨none, a⟩
  | o, .node p a v ks =>
    o = some ⟨some p, a⟩ ∧ s.heap p = some ⟨res a, some v⟩ ∧
      ∀ k, k < K → Holds res K s (s.hs (.field p k)) (ks k)

/-- No member is left behind in storage that is not allocated, and nodes have only `K` members. -/
def Clean (K : Nat) (s : NSt N A R V) : Prop :=
  ∀ p k, s.heap p = none ∨ K ≤ k → s.hs (.field p k) = none

end Node
end Verif
