import Verif.NodeProg
import Verif.Compare

/-!
# Comparison and hashing of recursive values

```
struct Node {
  Payload v;
  std::optional<indirect<Node, A>> m_0, …, m_{K-1};
  bool operator==(const Node&) const = default;
  auto operator<=>(const Node&) const = default;      // with a spelled-out result type
};
```

The operators of `indirect` are those of `Verif/Compare.lean`, with the operators of `Node` as operators of the owned
type: they are called with references to the nodes, that is, with their addresses.  As in `Verif/Node.lean` the
recursion is cut by a fuel argument.

Besides `Verif/Compare.lean` nothing here models a line of /repo; what is modelled are rules of C++: defaulted
comparisons compare member by member in declaration order and stop at the first difference, `std::optional` compares
the presence of a value first and an absent value comes first.  C++ does not define a hash of a class; `hashNode` is the
specialisation of `std::hash` that one would write: the hash of the payload combined with the hashes of the members.
-/

set_option autoImplicit false

namespace Verif
namespace Node
open Verif

section
variable {N A R V H : Type} [DecidableEq N] [DecidableEq R]

/-- The `indirect` at `l`, seen through `valueless_after_move()` (indirect.h:341-343) and `*` (indirect.h:311-329), which
gives a reference to the node. -/
def nref (l : Loc N) : Ref (NSt N A R V) Addr := ⟨Indirect.valueless l, Indirect.deref l⟩

/-- How the two headers compare `indirect`s for equality (indirect.h:377-387, indirect_cxx14.h:375-382). -/
inductive Header where
  | cxx20
  | cxx14
  deriving DecidableEq, Repr

/-- `operator==` of `indirect`. -/
def Header.eq (hd : Header) (f : Addr → Addr → M (NSt N A R V) Bool) (x y : Ref (NSt N A R V) Addr) :
    M (NSt N A R V) Bool :=
  match hd with
  | .cxx20 => Compare20.eq f x y
  | .cxx14 => Compare14.eq f x y

/-- `std::hash` of `indirect` (indirect.h:474-483, indirect_cxx14.h:584-592). -/
def Header.hash (hd : Header) (npos : H) (f : Addr → M (NSt N A R V) H) (x : Ref (NSt N A R V) Addr) :
    M (NSt N A R V) H :=
  match hd with
  | .cxx20 => Compare20.hash npos f x
  | .cxx14 => Compare14.hash npos f x

/-- `operator==(const optional&, const optional&)`. -/
def eqOpt (hd : Header) (f : Addr → Addr → M (NSt N A R V) Bool) (x y : Loc N) : M (NSt N A R V) Bool := do
  let a ← engaged x
  let b ← engaged y
  if a != b then pure false
  else if !a then pure true
  else hd.eq f (nref x) (nref y)

/-- Members compared in order, as long as they are equal. -/
def eqMembers (f : Nat → M (NSt N A R V) Bool) : Nat → M (NSt N A R V) Bool
  | 0 => pure true
  | k + 1 => do
    if ← eqMembers f k then f k
    else pure false

/-- The defaulted `operator==` of `Node`, with recursion depth at most `n`. -/
def eqNode (hd : Header) (eqT : V → V → M (NSt N A R V) Bool) (K : Nat) : Nat → Addr → Addr → M (NSt N A R V) Bool
  | 0, _, _ => M.diverge
  | n + 1, p, q => do
    let v ← readObj p
    let w ← readObj q
    if ← eqT v w then
      eqMembers (fun k => eqOpt hd (eqNode hd eqT K n) (.field p k) (.field q k)) K
    else pure false

/-- `operator<=>(const optional&, const optional&)`. -/
def cmpOpt (f : Addr → Addr → M (NSt N A R V) Cmp) (x y : Loc N) : M (NSt N A R V) Cmp := do
  let a ← engaged x
  let b ← engaged y
  if a && b then
    Compare20.cmp ⟨some f, fun _ _ => M.diverge, fun _ _ => M.diverge⟩ (nref x) (nref y)
  else pure (Cmp.ofBool a b)

/-- Members compared in order, as long as they are equivalent. -/
def cmpMembers (f : Nat → M (NSt N A R V) Cmp) : Nat → M (NSt N A R V) Cmp
  | 0 => pure .equivalent
  | k + 1 => do
    match ← cmpMembers f k with
    | .equivalent => f k
    | c => pure c

/-- The defaulted `operator<=>` of `Node`, with recursion depth at most `n`.  (`Node` has this operator, so
`synth_three_way` does not use `<`.) -/
def cmpNode (cmpT : V → V → M (NSt N A R V) Cmp) (K : Nat) : Nat → Addr → Addr → M (NSt N A R V) Cmp
  | 0, _, _ => M.diverge
  | n + 1, p, q => do
    let v ← readObj p
    let w ← readObj q
    match ← cmpT v w with
    | .equivalent => cmpMembers (fun k => cmpOpt (cmpNode cmpT K n) (.field p k) (.field q k)) K
    | c => pure c

/-- `std::hash<std::optional<…>>`: the hash of the value, or a constant. -/
def hashOpt (hd : Header) (nothing npos : H) (f : Addr → M (NSt N A R V) H) (x : Loc N) : M (NSt N A R V) H := do
  if ← engaged x then hd.hash npos f (nref x)
  else pure nothing

/-- The hashes of the members are combined in order. -/
def hashMembers (mix : H → H → H) (h : H) (f : Nat → M (NSt N A R V) H) : Nat → M (NSt N A R V) H
  | 0 => pure h
  | k + 1 => do
    let a ← hashMembers mix h f k
    let b ← f k
    pure (mix a b)

/-- `std::hash<Node>`. -/
def hashNode (hd : Header) (nothing npos : H) (mix : H → H → H) (hashT : V → M (NSt N A R V) H) (K : Nat) :
    Nat → Addr → M (NSt N A R V) H
  | 0, _ => M.diverge
  | n + 1, p => do
    let v ← readObj p
    let h ← hashT v
    hashMembers mix h (fun k => hashOpt hd nothing npos (hashNode hd nothing npos mix hashT K n) (.field p k)) K

/-! The expressions of a program. -/

/-- `P == Q` -/
def equal (hd : Header) (eqT : V → V → M (NSt N A R V) Bool) (K n : Nat) (P Q : Path N) : M (NSt N A R V) Bool := do
  let l ← resolve P
  let m ← resolve Q
  eqOpt hd (eqNode hd eqT K n) l m

/-- `P <=> Q` -/
def compare (cmpT : V → V → M (NSt N A R V) Cmp) (K n : Nat) (P Q : Path N) : M (NSt N A R V) Cmp := do
  let l ← resolve P
  let m ← resolve Q
  cmpOpt (cmpNode cmpT K n) l m

/-- `std::hash<…>()(P)` -/
def hash (hd : Header) (nothing npos : H) (mix : H → H → H) (hashT : V → M (NSt N A R V) H) (K n : Nat) (P : Path N) :
    M (NSt N A R V) H := do
  let l ← resolve P
  hashOpt hd nothing npos (hashNode hd nothing npos mix hashT K n) l

end
end Node
end Verif
