import Verif.Client

/-!
# Sets with keys of type `indirect`

Clients again: `std::set<indirect<T>>` and `std::unordered_set<indirect<T>>`.  What these do to the headers is compare and hash keys, construct the key of a
new node, and destroy the key of a node that is erased.  The keys of maps are the same; what maps do to mapped values is in `Verif/Maps.lean`.

Simplifications: the shape of the tree and the number of buckets are given for each operation, since balancing and rehashing (with stored hash codes) do not
touch keys; the memory for nodes is not modelled.
-/

set_option autoImplicit false

namespace Verif.Sets
open Verif

section
variable {C O L A : Type}

/-- A search tree; every node has a key, an object. -/
inductive Tree (L : Type) where
  | leaf
  | node (l : Tree L) (k : L) (r : Tree L)

/-- The keys, in the order of iteration. -/
def Tree.keys : Tree L → List L
  | .leaf => []
  | .node l k r => l.keys ++ k :: r.keys

/-- What a `std::set` asks for: is the key `x` less than `y`? and destroy a key. -/
structure Ask (C O L : Type) where
  less : L → L → C
  /-- does the answer say so? -/
  yes : O → Bool
  remove : L → C

/-- How an operation on a set ends. -/
inductive Outcome (L : Type) where
  /-- there is a key, that one -/
  | found (k : L)
  /-- there is none; the first key that is greater is `next` -/
  | absent (next : Option L)
  | threw (e : Exn)

/-- `lower_bound(y)`: down the tree.  `c`: the first key to the right of the tree. -/
def seek (q : Ask C O L) (y : L) : Tree L → Option L → Client C O (Outcome L)
  | .leaf, c => .ret (.absent c)
  | .node l k r, c => .call (q.less k y) fun
    | .exn e => .ret (.threw e)
    | .ret o => if q.yes o then seek q y r c else seek q y l (some k)

/-- `find(y)`: `lower_bound(y)`, and is `y` less than that? -/
def find (q : Ask C O L) (y : L) (t : Tree L) : Client C O (Outcome L) :=
  (seek q y t none).bind fun
    | .absent (some k) => .call (q.less y k) fun
      | .exn e => .ret (.threw e)
      | .ret o => if q.yes o then .ret (.absent (some k)) else .ret (.found k)
    | o => .ret o

/-- `insert(y)`, `insert(std::move(y))`: if there is no equivalent key, a key is made from `y` in a new node `n`. -/
def insert (q : Ask C O L) (add : L → L → C) (n y : L) (t : Tree L) : Client C O (Outcome L) :=
  (find q y t).bind fun
    | .absent c => .call (add n y) fun
      | .exn e => .ret (.threw e)
      | .ret _ => .ret (.absent c)
    | o => .ret o

/-- `erase(y)`. -/
def erase (q : Ask C O L) (y : L) (t : Tree L) : Client C O (Outcome L) :=
  (find q y t).bind fun
    | .found k => .call (q.remove k) fun
      | .exn e => .ret (.threw e)
      | .ret _ => .ret (.found k)
    | o => .ret o

section
variable [DecidableEq L]

/-- The node is linked before `next`. -/
def link (n : L) (next : Option L) : List L → List L
  | [] => [n]
  | k :: ks => if next = some k then n :: k :: ks else k :: link n next ks

/-- The keys after `insert`. -/
def inserted (n : L) (ks : List L) : Outcome L → List L
  | .absent c => link n c ks
  | _ => ks

/-- The keys after `erase`. -/
def erased (ks : List L) : Outcome L → List L
  | .found k => ks.filter (· ≠ k)
  | _ => ks

end

/-! ## Hash tables -/

/-- A node: the stored hash code, and the key. -/
abbrev Node (L : Type) := Nat × L

/-- What a `std::unordered_set` asks for. -/
structure HAsk (C O L : Type) where
  eq : L → L → C
  yes : O → Bool
  hash : L → C
  code : O → Nat
  remove : L → C

/-- How an operation on a hash table ends. -/
inductive HOutcome (L : Type) where
  | found (k : L)
  /-- there is no such key; the hash code of `y` is `h` -/
  | absent (h : Nat)
  | threw (e : Exn)

/-- Compare `y`, with hash code `h`, with the keys of a bucket. -/
def scan (q : HAsk C O L) (y : L) (h : Nat) : List L → Client C O (HOutcome L)
  | [] => .ret (.absent h)
  | k :: ks => .call (q.eq y k) fun
    | .exn e => .ret (.threw e)
    | .ret o => if q.yes o then .ret (.found k) else scan q y h ks

/-- The keys that are compared with a key of hash code `h`: those of its bucket, out of `m`; implementations may first compare the hash codes. -/
def bucket (m : Nat) (codes : Bool) (h : Nat) (t : List (Node L)) : List L :=
  (t.filter fun n => n.1 % m == h % m && (!codes || n.1 == h)).map (·.2)

/-- `find(y)`. -/
def hfind (q : HAsk C O L) (m : Nat) (codes : Bool) (y : L) (t : List (Node L)) : Client C O (HOutcome L) :=
  .call (q.hash y) fun
    | .exn e => .ret (.threw e)
    | .ret o => scan q y (q.code o) (bucket m codes (q.code o) t)

/-- `insert(y)`, `insert(std::move(y))`. -/
def hinsert (q : HAsk C O L) (add : L → L → C) (m : Nat) (codes : Bool) (n y : L) (t : List (Node L)) : Client C O (HOutcome L) :=
  (hfind q m codes y t).bind fun
    | .absent h => .call (add n y) fun
      | .exn e => .ret (.threw e)
      | .ret _ => .ret (.absent h)
    | o => .ret o

/-- `erase(y)`. -/
def herase (q : HAsk C O L) (m : Nat) (codes : Bool) (y : L) (t : List (Node L)) : Client C O (HOutcome L) :=
  (hfind q m codes y t).bind fun
    | .found k => .call (q.remove k) fun
      | .exn e => .ret (.threw e)
      | .ret _ => .ret (.found k)
    | o => .ret o

/-- The nodes after `insert`. -/
def hinserted (n : L) (t : List (Node L)) : HOutcome L → List (Node L)
  | .absent h => (h, n) :: t
  | _ => t

/-- The nodes after `erase`. -/
def herased [DecidableEq L] (t : List (Node L)) : HOutcome L → List (Node L)
  | .found k => t.filter (·.2 ≠ k)
  | _ => t

/-! ## With the headers -/

/-- How the key of a new node is made: by the copy or move constructor, with the allocator of the set if that passes it on. -/
inductive Way (A : Type) where
  | copy
  | move
  | copyA (a : A)
  | moveA (a : A)

def Way.moves : Way A → Bool
  | .move => true
  | .moveA _ => true
  | _ => false

variable {V X : Type}

/-- The constructors: indirect.h:129-139, 185-216; indirect_cxx14.h:198-238. -/
def Way.op : Way A → L → L → Op L A V X
  | .copy, n, y => .copy n y
  | .move, n, y => .move n y
  | .copyA a, n, y => .copyA n a y
  | .moveA a, n, y => .moveA n a y

/-- indirect.h: `std::less` is `(x <=> y) < 0` (indirect.h:400-408). -/
def ask20 : Ask (Either (Op L A V X) (Query L V)) (Out L A V) L :=
  ⟨fun x y => .query (.cmp x y), Sorting.isLess, fun x => .call (.destroy x)⟩

/-- indirect_cxx14.h: `std::less` is `x < y` (indirect_cxx14.h:393-400). -/
def ask14 : Ask (Either (Op L A V X) (Query14 L V)) (Out L A V) L :=
  ⟨fun x y => .query (.rel .lt x y), Sorting.isTrue, fun x => .call (.destroy x)⟩

/-- The hash code in an answer. -/
def codeOf : Out L A V → Nat
  | .hash h => h
  | _ => 0

/-- indirect.h: `std::equal_to` is `x == y` (indirect.h:377-387), and `std::hash` (474-483). -/
def hask20 : HAsk (Either (Op L A V X) (Query L V)) (Out L A V) L :=
  ⟨fun x y => .query (.eq x y), Sorting.isTrue, fun x => .query (.hash x), codeOf, fun x => .call (.destroy x)⟩

/-- indirect_cxx14.h: `std::equal_to` is `x == y` (indirect_cxx14.h:375-382), and `std::hash` (583-592). -/
def hask14 : HAsk (Either (Op L A V X) (Query14 L V)) (Out L A V) L :=
  ⟨fun x y => .query (.rel .eq x y), Sorting.isTrue, fun x => .query (.hash x), codeOf, fun x => .call (.destroy x)⟩

end
end Verif.Sets
