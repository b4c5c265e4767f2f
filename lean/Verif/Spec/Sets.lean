import Verif.Sets
import Verif.Spec.Client

/-!
# Specification of sets with keys of type `indirect`

What a set is, in terms of the values of its keys; a valueless key has no value.
-/

set_option autoImplicit false

namespace Verif.Spec
open Verif Verif.Sets

section
variable {L A R V X : Type} [DecidableEq L]

/-- Neither comes first. -/
def Equivalent (less : V → V → Bool) (a b : Option V) : Prop := before less a b = false ∧ before less b a = false

/-- The keys of a set, in the order of iteration: different objects, alive, each less than the next ones.  In particular no two are equivalent. -/
structure IsSet (less : V → V → Bool) (σ : Boxes L A V) (ks : List L) : Prop where
  nodup : ks.Nodup
  live : ∀ k ∈ ks, Live σ k
  sorted : ks.Pairwise fun a b => before less (valueOf σ a) (valueOf σ b) = true

/-- `==` of optional values. -/
def same (eq : V → V → Bool) : Option V → Option V → Bool
  | some v, some w => eq v w
  | none, none => true
  | _, _ => false

/-- The hash of an optional value. -/
def hashOf (hash : V → Nat) (npos : Nat) : Option V → Nat
  | some v => hash v
  | none => npos

/-- The nodes of a hash table: different objects, alive, no two equal, and the hash codes are theirs. -/
structure IsTable (eq : V → V → Bool) (hash : V → Nat) (npos : Nat) (σ : Boxes L A V) (t : List (Node L)) : Prop where
  nodup : (t.map (·.2)).Nodup
  live : ∀ n ∈ t, Live σ n.2
  codes : ∀ n ∈ t, n.1 = hashOf hash npos (valueOf σ n.2)
  distinct : t.Pairwise fun a b => same eq (valueOf σ a.2) (valueOf σ b.2) = false

/-- New objects that copy and move constructors of the owned type make are equivalent to their source, as the requirements on copyable and movable types
say. -/
def Preserves (T : TSpec V X) (R : V → V → Prop) : Prop :=
  ∀ v n w, (T.copy v n = .ok w → R v w) ∧ ((T.move v n).1 = .ok w → R v w)

/-- `==` and the hash of the owned type do not throw, and are `eq` and `hash`. -/
def Hashes (C : TCmp V) (eq : V → V → Bool) (hash : V → Nat) : Prop :=
  (∀ v w n, C.eq v w n = .ok (eq v w)) ∧ ∀ v n, C.hash v n = .ok (hash v)

/-- The requirements on `==` and the hash: an equivalence, and equal values have equal hashes. -/
structure HashLaws (eq : V → V → Bool) (hash : V → Nat) : Prop where
  refl : ∀ v, eq v v = true
  symm : ∀ v w, eq v w = true → eq w v = true
  trans : ∀ u v w, eq u v = true → eq v w = true → eq u w = true
  hash : ∀ v w, eq v w = true → hash v = hash w

/-- The allocator of a new key, if `a` is that of its source. -/
def keyAlloc (tr : ATraits A R) : Way A → A → A
  | .copy, a => tr.socc a
  | .move, a => a
  | .copyA b, _ => b
  | .moveA b, _ => b

/-- The allocator of `n` is the one that the way of making it gives. -/
def Allocated (al : Way A → A → A) (how : Way A) (σ τ : Boxes L A V) (n y : L) : Prop :=
  ∀ b c, τ n = some b → σ y = some c → b.alloc = al how c.alloc

/-- An operation left the objects alone; `y` is the source, which a move changes. -/
def Leaves (how : Way A) (y : L) (σ τ : Boxes L A V) (z : L) : Prop := (how.moves = false ∨ z ≠ y) → τ z = σ z

/-- The keys are different objects and alive. -/
def KeysAlive (σ : Boxes L A V) (ks : List L) : Prop := ks.Nodup ∧ ∀ k ∈ ks, Live σ k

/-- What `find(y)` says: the key that is equivalent, or that there is none. -/
def Finds (less : V → V → Bool) (σ : Boxes L A V) (ks : List L) (y : L) : Sets.Outcome L → Prop
  | .found k => k ∈ ks ∧ Equivalent less (valueOf σ k) (valueOf σ y)
  | .absent _ => ∀ k ∈ ks, ¬ Equivalent less (valueOf σ k) (valueOf σ y)
  | .threw _ => False

/-- What `insert` does to objects: nothing if there is an equivalent key; else the new key `n` gets a value equivalent to that of `y`, and an allocator as `al`
says.  If the constructor throws
there is no new key. -/
def Inserts (al : Way A → A → A) (less : V → V → Bool) (how : Way A) (σ τ : Boxes L A V) (ks : List L) (n y : L) : Sets.Outcome L → Prop
  | .found k => k ∈ ks ∧ Equivalent less (valueOf σ k) (valueOf σ y) ∧ τ = σ
  | .absent _ => (∀ k ∈ ks, ¬ Equivalent less (valueOf σ k) (valueOf σ y)) ∧ Equivalent less (valueOf τ n) (valueOf σ y) ∧
      Allocated al how σ τ n y ∧ ∀ z, z ≠ n → Leaves how y σ τ z
  | .threw _ => (∀ k ∈ ks, ¬ Equivalent less (valueOf σ k) (valueOf σ y)) ∧ ∀ z, Leaves how y σ τ z

/-- What `erase(y)` does to objects: the equivalent key is destroyed. -/
def Erases (less : V → V → Bool) (σ τ : Boxes L A V) (ks : List L) (y : L) : Sets.Outcome L → Prop
  | .found k => k ∈ ks ∧ Equivalent less (valueOf σ k) (valueOf σ y) ∧ τ = drop σ k
  | .absent _ => (∀ k ∈ ks, ¬ Equivalent less (valueOf σ k) (valueOf σ y)) ∧ τ = σ
  | .threw _ => False

/-- What `find(y)` of a hash table says. -/
def TFinds (eq : V → V → Bool) (σ : Boxes L A V) (t : List (Sets.Node L)) (y : L) : HOutcome L → Prop
  | .found k => (∃ n ∈ t, n.2 = k) ∧ same eq (valueOf σ y) (valueOf σ k) = true
  | .absent _ => ∀ n ∈ t, same eq (valueOf σ y) (valueOf σ n.2) = false
  | .threw _ => False

/-- What `insert` does. -/
def TInserts (al : Way A → A → A) (eq : V → V → Bool) (how : Way A) (σ τ : Boxes L A V) (t : List (Sets.Node L)) (n y : L) : HOutcome L → Prop
  | .found k => (∃ n ∈ t, n.2 = k) ∧ same eq (valueOf σ y) (valueOf σ k) = true ∧ τ = σ
  | .absent _ => (∀ n ∈ t, same eq (valueOf σ y) (valueOf σ n.2) = false) ∧ same eq (valueOf σ y) (valueOf τ n) = true ∧
      Allocated al how σ τ n y ∧ ∀ z, z ≠ n → Leaves how y σ τ z
  | .threw _ => (∀ n ∈ t, same eq (valueOf σ y) (valueOf σ n.2) = false) ∧ ∀ z, Leaves how y σ τ z

/-- What `erase(y)` does. -/
def TErases (eq : V → V → Bool) (σ τ : Boxes L A V) (t : List (Sets.Node L)) (y : L) : HOutcome L → Prop
  | .found k => (∃ n ∈ t, n.2 = k) ∧ same eq (valueOf σ y) (valueOf σ k) = true ∧ τ = drop σ k
  | .absent _ => (∀ n ∈ t, same eq (valueOf σ y) (valueOf σ n.2) = false) ∧ τ = σ
  | .threw _ => False

variable {C O S : Type}

/-- Programs with one set: they make calls, which may use but not change its keys (keys are `const`), and operations of the set.  `start`: states before the
set is made. -/
inductive SetReach (call : C → Env → S → Res S O) (abs : S → Boxes L A V) (legal : Boxes L A V → C → Prop) (changes : C → List L)
    (q : Ask C O L) (add : Way A → L → L → C) (start : S → Prop) : S → List L → Prop
  | new {s : S} : start s → SetReach call abs legal changes q add start s []
  | ret {s s' : S} {ks : List L} {c : C} {e : Env} {o : O} : SetReach call abs legal changes q add start s ks →
    legal (abs s) c → (∀ k ∈ ks, k ∉ changes c) → call c e s = .ok o s' → SetReach call abs legal changes q add start s' ks
  | threw {s s' : S} {ks : List L} {c : C} {e : Env} {x : Exn} : SetReach call abs legal changes q add start s ks →
    legal (abs s) c → (∀ k ∈ ks, k ∉ changes c) → call c e s = .threw x s' → SetReach call abs legal changes q add start s' ks
  | find {s s' : S} {t : Tree L} {y : L} {es : Nat → Env} {r : Sets.Outcome L} : SetReach call abs legal changes q add start s t.keys →
    Live (abs s) y → (Sets.find q y t).run call es s = .ok r s' → SetReach call abs legal changes q add start s' t.keys
  | insert {s s' : S} {t : Tree L} {n y : L} {how : Way A} {es : Nat → Env} {r : Sets.Outcome L} :
    SetReach call abs legal changes q add start s t.keys →
    Dead (abs s) n → Live (abs s) y → (how.moves = true → y ∉ t.keys) → (Sets.insert q (add how) n y t).run call es s = .ok r s' →
    SetReach call abs legal changes q add start s' (inserted n t.keys r)
  | erase {s s' : S} {t : Tree L} {y : L} {es : Nat → Env} {r : Sets.Outcome L} : SetReach call abs legal changes q add start s t.keys →
    Live (abs s) y → (Sets.erase q y t).run call es s = .ok r s' → SetReach call abs legal changes q add start s' (erased t.keys r)

/-- The same with one hash table. -/
inductive TableReach (call : C → Env → S → Res S O) (abs : S → Boxes L A V) (legal : Boxes L A V → C → Prop) (changes : C → List L)
    (q : HAsk C O L) (add : Way A → L → L → C) (start : S → Prop) : S → List (Node L) → Prop
  | new {s : S} : start s → TableReach call abs legal changes q add start s []
  | ret {s s' : S} {t : List (Node L)} {c : C} {e : Env} {o : O} : TableReach call abs legal changes q add start s t →
    legal (abs s) c → (∀ n ∈ t, n.2 ∉ changes c) → call c e s = .ok o s' → TableReach call abs legal changes q add start s' t
  | threw {s s' : S} {t : List (Node L)} {c : C} {e : Env} {x : Exn} : TableReach call abs legal changes q add start s t →
    legal (abs s) c → (∀ n ∈ t, n.2 ∉ changes c) → call c e s = .threw x s' → TableReach call abs legal changes q add start s' t
  | find {s s' : S} {t : List (Node L)} {m : Nat} {b : Bool} {y : L} {es : Nat → Env} {r : HOutcome L} :
    TableReach call abs legal changes q add start s t →
    Live (abs s) y → (hfind q m b y t).run call es s = .ok r s' → TableReach call abs legal changes q add start s' t
  | insert {s s' : S} {t : List (Node L)} {m : Nat} {b : Bool} {n y : L} {how : Way A} {es : Nat → Env} {r : HOutcome L} :
    TableReach call abs legal changes q add start s t →
    Dead (abs s) n → Live (abs s) y → (how.moves = true → ∀ n ∈ t, n.2 ≠ y) → (hinsert q (add how) m b n y t).run call es s = .ok r s' →
    TableReach call abs legal changes q add start s' (hinserted n t r)
  | erase {s s' : S} {t : List (Node L)} {m : Nat} {b : Bool} {y : L} {es : Nat → Env} {r : HOutcome L} :
    TableReach call abs legal changes q add start s t →
    Live (abs s) y → (herase q m b y t).run call es s = .ok r s' → TableReach call abs legal changes q add start s' (herased t r)

end
end Verif.Spec
