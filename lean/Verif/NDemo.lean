import Verif.Proofs.NodeReach
import Verif.Demo

/-!
# Concrete trees

Small programs with recursive nodes, used beside the theorems to show that their hypotheses can be met, and
for the counterexamples.  Nothing here is used by a proof of a general theorem.
-/

set_option autoImplicit false

namespace Verif

namespace Tree
variable {A V : Type} {K : Nat}

instance decMem : (t : Tree A V) → (q : Addr) → Decidable (t.Mem K q)
  | absent, _ => isFalse id
  | hollow _, _ => isFalse id
  | node p _ _ ks, q =>
    have : ∀ k, Decidable ((ks k).Mem K q) := fun k => decMem (ks k) q
    decidable_of_iff (q = p ∨ ∃ k : Fin K, (ks k).Mem K q)
      ⟨fun h => h.imp_right fun ⟨k, hk⟩ => ⟨k, k.2, hk⟩, fun h => h.imp_right fun ⟨k, h1, h2⟩ => ⟨⟨k, h1⟩, h2⟩⟩

instance decHas : (t : Tree A V) → (r : List Nat) → Decidable (t.Has K r)
  | absent, [] => isTrue trivial
  | hollow _, [] => isTrue trivial
  | node _ _ _ _, [] => isTrue trivial
  | absent, _ :: _ => isFalse id
  | hollow _, _ :: _ => isFalse id
  | node _ _ _ ks, k :: r =>
    have := decHas (ks k) r
    inferInstanceAs (Decidable (k < K ∧ (ks k).Has K r))

instance decAbsent : (t : Tree A V) → Decidable (t = absent)
  | absent => isTrue rfl
  | hollow _ => isFalse nofun
  | node _ _ _ _ => isFalse nofun

end Tree

namespace Node
variable {N A R V X : Type} [DecidableEq N] [DecidableEq A] [DecidableEq R] [DecidableEq V] {K : Nat}

instance decHolds (res : A → R) (s : NSt N A R V) :
    (o : Option (Handle A)) → (t : Tree A V) → Decidable (Holds res K s o t)
  | o, .absent => inferInstanceAs (Decidable (o = none))
  | o, .hollow a => inferInstanceAs (Decidable (o = some ⟨none, a⟩))
  | o, .node p a v ks =>
    have : ∀ k, Decidable (Holds res K s (s.hs (.field p k)) (ks k)) := fun k => decHolds res s _ (ks k)
    inferInstanceAs (Decidable (o = some ⟨some p, a⟩ ∧ s.heap p = some ⟨res a, some v⟩ ∧
      ∀ k, k < K → Holds res K s (s.hs (.field p k)) (ks k)))

instance (W : N → Tree A V) (P : Path N) : Decidable (Exists K W P) := inferInstanceAs (Decidable (Tree.Has _ _ _))

instance (W : N → Tree A V) (P : Path N) : Decidable (Live K W P) := inferInstanceAs (Decidable (_ ∧ ¬ _ = _))

instance (W : N → Tree A V) (P : Path N) : Decidable (Owner K W P) := by
  unfold Owner
  cases treeAt W P with
  | absent => exact isFalse fun h => by obtain ⟨_, _, _, _, _, h⟩ := h; exact nomatch h
  | hollow a => exact isFalse fun h => by obtain ⟨_, _, _, _, _, h⟩ := h; exact nomatch h
  | node p a v ks =>
    by_cases h : Exists K W P
    · exact isTrue ⟨h, p, a, v, ks, rfl⟩
    · exact isFalse fun h' => h h'.1

instance (W : N → Tree A V) (P : Path N) : Decidable (Empty K W P) := inferInstanceAs (Decidable (_ ∧ _ = _))

instance (n : Nat) (W : N → Tree A V) (P : Path N) : Decidable (Fits K n W P) :=
  inferInstanceAs (Decidable (_ ≤ _))

instance (P Q : Path N) : Decidable (P.Apart Q) := by unfold Path.Apart; infer_instance

instance (tr : ATraits A R) (W : N → Tree A V) (n : Nat) (o : NOp N A X) : Decidable (Legal tr K W n o) := by
  cases o <;> unfold Legal <;> infer_instance

instance (tr : ATraits A R) (T : TSpec V X) : (t t' : Tree A V) → Decidable (InPlace tr T t t')
  | .node _ _ _ _, .node _ _ _ _ => inferInstanceAs (Decidable (_ = _ ∧ _ = _))
  | .absent, _ => isFalse id
  | .hollow _, _ => isFalse id
  | .node _ _ _ _, .absent => isFalse id
  | .node _ _ _ _, .hollow _ => isFalse id

end Node

namespace NDemo
open Verif Verif.Node

/-- Two variables. -/
abbrev Var := Fin 2

/-- States with two variables, numbered allocators and numbers as payloads. -/
abbrev S := NSt Var Nat Nat Nat

instance (W : Var → Tree Nat Nat) (s : S) (res : Nat → Nat) (K : Nat) : Decidable (Shows res K W s) :=
  inferInstanceAs (Decidable (∀ x : Fin 2, Holds _ _ _ _ _))

/-- Read a tree of depth at most `n` from a state. -/
def read (s : S) : Nat → Option (Handle Nat) → Tree Nat Nat
  | _, none => .absent
  | _, some ⟨none, a⟩ => .hollow a
  | 0, some ⟨some _, a⟩ => .hollow a
  | n + 1, some ⟨some p, a⟩ =>
    match s.heap p with
    | some ⟨_, some v⟩ => .node p a v (fun k => read s n (s.hs (.field p k)))
    | _ => .hollow a

/-- The trees of all variables. -/
def view (s : S) : Var → Tree Nat Nat := fun x => read s 8 (s.hs (.var x))

section
variable (tr : ATraits Nat Nat) (K : Nat)

/-- Run a program, checking that every statement is legal where it is run. -/
def run : List (NCall Var Nat Nat) → S → Option S
  | [], s => some s
  | c :: cs, s =>
    if Shows tr.res K (view s) s ∧ Legal tr K (view s) c.depth c.op then
      match call tr Demo.T K c s with
      | .ok _ s' => run cs s'
      | .threw _ s' => run cs s'
      | _ => none
    else none

theorem reach_run : ∀ (cs : List (NCall Var Nat Nat)) {s s' : S}, Reach tr Demo.T K s →
    run tr K cs s = some s' → Reach tr Demo.T K s'
  | [], s, s', h, e => by cases e; exact h
  | c :: cs, s, s', h, e => by
    unfold run at e
    split at e
    · rename_i hc
      split at e
      · rename_i hr; exact reach_run cs (.ok h hc.1 hc.2 hr) e
      · rename_i hr; exact reach_run cs (.threw h hc.1 hc.2 hr) e
      · exact nomatch e
    · exact nomatch e

/-- The state after a program. -/
def after (cs : List (NCall Var Nat Nat)) : S := (run tr K cs (start (Demo.fine 0))).getD (start (Demo.fine 0))

theorem reach (cs : List (NCall Var Nat Nat)) : Reach tr Demo.T K (after tr K cs) := by
  unfold after
  cases e : run tr K cs (start (Demo.fine 0)) with
  | none => exact .start _
  | some s => exact reach_run tr K cs (.start _) e

end

/-- Addresses from `p` on, nothing throws. -/
def from' (p : Addr) : Env := ⟨fun _ => false, fun i => p + i, fun _ => 0⟩

/-- Addresses from `p` on, the `n`-th allocation fails. -/
def short (p n : Nat) : Env := ⟨fun i => i == n, fun i => p + i, fun _ => 0⟩

/-- Addresses from `p` on, the `n`-th operation of the payload throws. -/
def throws (p n : Nat) : Env := ⟨fun _ => false, fun i => p + i, fun i => if i = n then 13 else 0⟩

/-- A place. -/
def at' (x : Var) (r : List Nat) : Path Var := ⟨x, r⟩

/-- A tree of four nodes in variable 0 (payloads 7; 8, 9; 4 below 9), and below the 8 a valueless
`indirect`; variable 1 is empty.  Two members per node. -/
def build : List (NCall Var Nat Nat) := [
  ⟨.make (at' 0 []) 5 [7], 1, from' 100⟩,
  ⟨.make (at' 0 [0]) 5 [8], 1, from' 101⟩,
  ⟨.make (at' 0 [1]) 5 [9], 1, from' 102⟩,
  ⟨.make (at' 0 [0, 1]) 6 [4], 1, from' 103⟩,
  ⟨.move (at' 0 [1, 0]) (at' 0 [0, 1]), 0, from' 104⟩]

/-- The state with that tree, for allocators with the given traits. -/
def s0 (tr : ATraits Nat Nat) : S := after tr 2 build

/-- Allocators that never propagate. -/
abbrev tr0 := Demo.alloc false false false

theorem s0_reach (tr : ATraits Nat Nat) : Reach tr Demo.T 2 (s0 tr) := reach tr 2 build

theorem s0_view : Shows tr0.res 2 (view (s0 tr0)) (s0 tr0) := by decide +kernel

/-- The tree is there: variable 0 holds four nodes in blocks 100 to 103. -/
example : (view (s0 tr0) 0).height 2 = 3 ∧ (∀ q < 110, (view (s0 tr0) 0).Mem 2 q ↔ 100 ≤ q ∧ q < 104) ∧
    treeAt (view (s0 tr0)) (at' 0 [0, 1]) ≠ .absent := by decide +kernel

/-- The state after copying that tree into variable 1. -/
def s1 : S := after tr0 2 (build ++ [⟨.copy (at' 1 []) (at' 0 []), 3, from' 200⟩])

end NDemo
end Verif
