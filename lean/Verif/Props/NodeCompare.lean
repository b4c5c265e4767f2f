import Verif.Proofs.NodeCompare
import Verif.NDemo

/-!
# C61: comparison and hashing of recursive values

Nodes with the comparison operators the compiler generates (`Verif/NodeCompare.lean`), in the reachable states of programs
with recursive values (`Verif/Spec/NodeRun.lean`).  `P` and `Q` are any two places that exist; one may be inside the tree
at the other.  The recursion depth `n` need only suffice for one of the trees.
-/

set_option autoImplicit false
set_option linter.unusedSectionVars false
set_option linter.unusedSimpArgs false

namespace Verif.Props
open Verif Verif.Node

section
variable {N A R V X H : Type} [DecidableEq N] [DecidableEq R]
variable {tr : ATraits A R} {T : TSpec V X} {K : Nat} {s : NSt N A R V} {W : N → Tree A V}

/-- `P == Q` answers whether the trees have the same shape (absent equal to absent, valueless equal to valueless only)
and equal payloads; addresses and allocators play no role, and nothing changes. -/
theorem C61_equal (_h : Reach tr T K s) (hW : Shows tr.res K W s) (hd : Header) (f : V → V → Bool) {P Q : Path N}
    {n : Nat} (hP : Exists K W P) (hQ : Exists K W Q) (hn : Fits K n W P ∨ Fits K n W Q) :
    ∃ b, equal hd (pureOp f) K n P Q s = .ok b s ∧
      (b = true ↔ (treeAt W P).Like (fun v w => f v w = true) K (treeAt W Q)) :=
  ⟨_, equal_eval hW hd f hP hQ hn, Tree.eqb_iff⟩

/-- If `==` of the payloads is an equivalence relation, so is `==` of trees. -/
theorem C61_equivalence (h : Reach tr T K s) (hW : Shows tr.res K W s) (hd : Header) {f : V → V → Bool}
    (hf : Spec.Equivalence f) {P Q Z : Path N} {n : Nat} (hP : Exists K W P) (hQ : Exists K W Q) (hZ : Exists K W Z)
    (nP : Fits K n W P) (nQ : Fits K n W Q) (nZ : Fits K n W Z) :
    equal hd (pureOp f) K n P P s = .ok true s ∧
    (equal hd (pureOp f) K n P Q s = .ok true s → equal hd (pureOp f) K n Q P s = .ok true s) ∧
    (equal hd (pureOp f) K n P Q s = .ok true s → equal hd (pureOp f) K n Q Z s = .ok true s →
      equal hd (pureOp f) K n P Z s = .ok true s) := by
  rw [equal_eval hW hd f hP hP (.inl nP), equal_eval hW hd f hP hQ (.inl nP), equal_eval hW hd f hQ hP (.inl nQ),
    equal_eval hW hd f hQ hZ (.inl nQ), equal_eval hW hd f hP hZ (.inl nP)]
  simp only [Res.ok.injEq, and_true, Tree.eqb_iff]
  exact ⟨Tree.Like.refl hf.refl _, Tree.Like.symm hf.symm, Tree.Like.trans hf.trans⟩

/-- `P <=> Q` is the lexicographic comparison of the trees, and nothing changes. -/
theorem C61_three_way (_h : Reach tr T K s) (hW : Shows tr.res K W s) (f : V → V → Cmp) {P Q : Path N} {n : Nat}
    (hP : Exists K W P) (hQ : Exists K W Q) (hn : Fits K n W P ∨ Fits K n W Q) :
    compare (pureOp f) K n P Q s = .ok ((treeAt W P).cmp f K (treeAt W Q)) s :=
  compare_eval hW f hP hQ hn

/-- What lexicographic means: the result for two nodes is that of the payloads if it is not "equivalent", else that of
the first members for which it is not. -/
theorem C61_lexicographic (f : V → V → Cmp) (p q : Addr) (a b : A) (v w : V) (ks js : Nat → Tree A V) (c : Cmp)
    (hc : c ≠ .equivalent) :
    (Tree.node p a v ks).cmp f K (.node q b w js) = c ↔
      f v w = c ∨ (f v w = .equivalent ∧ ∃ k, k < K ∧ (ks k).cmp f K (js k) = c ∧
        ∀ j, j < k → (ks j).cmp f K (js j) = .equivalent) := by
  simp only [Tree.cmp]
  by_cases e : f v w = .equivalent
  · rw [if_pos e, Tree.firstDifference_eq hc]
    constructor
    · exact fun h => .inr ⟨e, h⟩
    · rintro (h | h)
      · exact absurd (h.symm.trans e) hc
      · exact h.2
  · rw [if_neg e]
    exact ⟨.inl, fun h => h.elim id fun h => absurd h.1 e⟩

/-- If the comparison of payloads is an order, the comparison of the trees of a state is one; it is total if that of
the payloads is. -/
theorem C61_order (h : Reach tr T K s) (hW : Shows tr.res K W s) {f : V → V → Cmp} (hf : Spec.Lawful f) (n : Nat) :
    ∃ c : {P : Path N // Exists K W P ∧ Fits K n W P} → {P : Path N // Exists K W P ∧ Fits K n W P} → Cmp,
      (∀ P Q, compare (pureOp f) K n P.1 Q.1 s = .ok (c P Q) s) ∧ Spec.Lawful c ∧
      (Spec.Total f → Spec.Total c) := by
  have E := Tree.cmp_lawful (A := A) (K := K) hf
  refine ⟨_, fun P Q => C61_three_way h hW f P.2.1 Q.2.1 (.inl P.2.2), ⟨?_, ?_, ?_, ?_⟩, ?_⟩
  · intro a; exact E.refl _
  · intro a b; exact E.reverse _ _
  · intro a b c; exact E.trans _ _ _
  · intro a b c; exact E.congr _ _ _
  · intro ht a b; exact Tree.cmp_total ht _ _

/-- `==` and `<=>` agree if they agree for payloads. -/
theorem C61_consistent (_h : Reach tr T K s) (hW : Shows tr.res K W s) (hd : Header) {f : V → V → Bool}
    {g : V → V → Cmp} (hf : ∀ v w, f v w = true ↔ g v w = .equivalent) {P Q : Path N} {n : Nat}
    (hP : Exists K W P) (hQ : Exists K W Q) (hn : Fits K n W P ∨ Fits K n W Q) :
    equal hd (pureOp f) K n P Q s = .ok true s ↔ compare (pureOp g) K n P Q s = .ok .equivalent s := by
  rw [equal_eval hW hd f hP hQ hn, compare_eval hW g hP hQ hn]
  simp only [Res.ok.injEq, and_true]
  rw [Tree.eqb_iff, Tree.cmp_equivalent]
  simp only [hf]

/-- The hash of a tree depends only on its shape and payloads; equal trees have equal hashes, if this is true of
payloads. -/
theorem C61_hash (_h : Reach tr T K s) (hW : Shows tr.res K W s) (hd : Header) (nothing npos : H) (mix : H → H → H)
    {f : V → V → Bool} {g : V → H} (hf : ∀ v w, f v w = true → g v = g w) {P Q : Path N} {n : Nat}
    (hP : Exists K W P) (hQ : Exists K W Q) (nP : Fits K n W P) (nQ : Fits K n W Q) :
    hash hd nothing npos mix (fun v => pure (g v)) K n P s = .ok ((treeAt W P).hash nothing npos mix g K) s ∧
    (equal hd (pureOp f) K n P Q s = .ok true s →
      (treeAt W P).hash nothing npos mix g K = (treeAt W Q).hash nothing npos mix g K) := by
  refine ⟨hash_eval hW hd nothing npos mix g hP nP, ?_⟩
  rw [equal_eval hW hd f hP hQ (.inl nP)]
  simp only [Res.ok.injEq, and_true, Tree.eqb_iff]
  exact Tree.Like.hash hf

/-- If the comparisons of payloads may throw but do not change anything, the comparisons of trees return or throw, and
do not change anything. -/
theorem C61_throws (_h : Reach tr T K s) (hW : Shows tr.res K W s) (hd : Header)
    {f : V → V → M (NSt N A R V) Bool} {g : V → V → M (NSt N A R V) Cmp} (hf : ∀ v w, OnlyLooks (f v w))
    (hg : ∀ v w, OnlyLooks (g v w)) {P Q : Path N} {n : Nat}
    (hP : Exists K W P) (hQ : Exists K W Q) (hn : Fits K n W P ∨ Fits K n W Q) :
    ((∃ b, equal hd f K n P Q s = .ok b s) ∨ ∃ e, equal hd f K n P Q s = .threw e s) ∧
    ((∃ c, compare g K n P Q s = .ok c s) ∨ ∃ e, compare g K n P Q s = .threw e s) := by
  unfold equal Node.compare
  rw [M.bind_ok (shows_resolve hW hP), M.bind_ok (shows_resolve hW hQ),
    M.bind_ok (shows_resolve hW hP), M.bind_ok (shows_resolve hW hQ)]
  exact ⟨eqOpt_looks hd hf (shows_holds hW hP) (shows_holds hW hQ) hn,
    cmpOpt_looks hg (shows_holds hW hP) (shows_holds hW hQ) hn⟩

/-- A variable that was copied from a tree compares equal to it, if copies of payloads are equal to their sources. -/
theorem C61_copy_equal (S : tr.Sound) (Rf : tr.Reflexive) (h : Reach tr T K s) (hW : Shows tr.res K W s)
    (hd : Header) {f : V → V → Bool} (hf : ∀ v w, Copied T v w → f w v = true) {x : N} {Q : Path N} {n : Nat}
    (hx : W x = .absent) (hQ : Live K W Q) (hn : Fits K n W Q) (e : Env) {s' : NSt N A R V}
    (hr : call tr T K (⟨.copy ⟨x, []⟩ Q, n, e⟩ : NCall N A X) s = .ok () s') :
    equal hd (pureOp f) K n ⟨x, []⟩ Q s' = .ok true s' := by
  have hE : Empty K W ⟨x, []⟩ := ⟨by simp [Node.Exists, Tree.Has], by simp [treeAt, hx, Tree.at']⟩
  have := exec_spec tr T S Rf ((h.world S Rf hW).enter e) n (.copy ⟨x, []⟩ Q : NOp N A X) ⟨hE, hQ, hn⟩
  rw [show exec tr T K n (.copy ⟨x, []⟩ Q : NOp N A X) (s.enter e) = .ok () s' from hr] at this
  obtain ⟨_, ⟨t, h1, _, rfl⟩, w'⟩ := this
  have hne : x ≠ Q.root := by
    intro e
    obtain ⟨h1, h2⟩ := hQ
    unfold Node.Exists at h1
    unfold treeAt at h2
    rw [← e, hx] at h1 h2
    cases hs : Q.steps with
    | nil => rw [hs] at h2; exact h2 rfl
    | cons k r => rw [hs] at h1; exact h1
  have eQ : (putAt W ⟨x, []⟩ t) Q.root = W Q.root := by
    unfold putAt upd; rw [if_neg (fun e => hne e.symm)]
  have tQ : treeAt (putAt W ⟨x, []⟩ t) Q = treeAt W Q := by unfold treeAt; rw [eQ]
  have tP : treeAt (putAt W ⟨x, []⟩ t) ⟨x, []⟩ = t := by
    unfold treeAt putAt upd; simp [Tree.put]; cases t <;> rfl
  have xP : Exists K (putAt W ⟨x, []⟩ t) ⟨x, []⟩ := by simp [Node.Exists, Tree.Has]
  have xQ : Exists K (putAt W ⟨x, []⟩ t) Q := by unfold Node.Exists; rw [eQ]; exact hQ.1
  have nQ : Fits K n (putAt W ⟨x, []⟩ t) Q := by unfold Fits; rw [tQ]; exact hn
  rw [equal_eval w'.holds hd f xP xQ (.inr nQ), tP, tQ]
  congr 1
  rw [Tree.eqb_iff]
  exact Tree.Like.symm (C := fun v w => f w v = true) (fun v w h => h) (Tree.Copy.like_of hf h1)

end

/-! ### The hypotheses are met -/
section
open NDemo

/-- The answer of a comparison. -/
def told {σ α : Type} : Res σ α → Option α
  | .ok a _ => some a
  | _ => none

/-- In `s1` variable 1 is a copy of variable 0 (four nodes and a valueless member): equal, in either header; parts of the
tree are different. -/
example : Shows tr0.res 2 (view s1) s1 ∧ Exists 2 (view s1) (at' 0 []) ∧ Exists 2 (view s1) (at' 1 []) ∧
    Fits 2 3 (view s1) (at' 0 []) ∧
    (∀ hd ∈ [Header.cxx20, Header.cxx14],
      told (equal hd (pureOp fun v w : Nat => v == w) 2 3 (at' 0 []) (at' 1 []) s1) = some true ∧
      told (equal hd (pureOp fun v w : Nat => v == w) 2 3 (at' 0 []) (at' 0 [1]) s1) = some false ∧
      told (equal hd (pureOp fun v w : Nat => v == w) 2 3 (at' 0 [0, 1]) (at' 0 [0, 0]) s1) = some false ∧
      told (equal hd (pureOp fun v w : Nat => v == w) 2 3 (at' 0 [0, 0]) (at' 0 [1, 1]) s1) = some true) := by
  decide +kernel

/-- Comparison of numbers. -/
def numbers (v w : Nat) : Cmp := if v < w then .less else if w < v then .greater else .equivalent

example : Spec.Lawful numbers ∧ Spec.Total numbers := by
  refine ⟨⟨?_, ?_, ?_, ?_⟩, ?_⟩
  · intro a; simp [numbers]
  · intro a b; unfold numbers; split <;> split <;> simp [Spec.reverse] <;> omega
  · intro a b c; unfold numbers; intro h1 h2
    by_cases h3 : a < b
    · by_cases h4 : b < c
      · rw [if_pos (by omega)]
      · rw [if_neg h4] at h2; split at h2 <;> simp at h2
    · rw [if_neg h3] at h1; split at h1 <;> simp at h1
  · intro a b c; unfold numbers; intro h
    have : a = b := by
      by_cases h3 : a < b
      · simp [h3] at h
      · by_cases h4 : b < a
        · simp [h3, h4] at h
        · omega
    rw [this]
  · intro a b; unfold numbers; split <;> simp; split <;> simp

/-- The root (7) is less than its second member (9), the absent member is less than the valueless one. -/
example : told (compare (pureOp numbers) 2 3 (at' 0 []) (at' 0 [1]) s1) = some .less ∧
    told (compare (pureOp numbers) 2 3 (at' 0 []) (at' 1 []) s1) = some .equivalent ∧
    told (compare (pureOp numbers) 2 3 (at' 0 [0, 0]) (at' 0 [0, 1]) s1) = some .less ∧
    told (compare (pureOp numbers) 2 3 (at' 0 [0, 1]) (at' 0 [0]) s1) = some .less ∧
    told (Node.hash .cxx20 1000 2000 (fun a b => 3 * a + b) (fun v : Nat => pure v) 2 3 (at' 0 []) s1) =
      told (Node.hash .cxx14 1000 2000 (fun a b => 3 * a + b) (fun v : Nat => pure v) 2 3 (at' 1 []) s1) := by
  decide +kernel

/-- A comparison of payloads that throws. -/
example : (∀ v w : Nat, OnlyLooks (if v = w then (pure true : M S Bool) else M.throwE .badAlloc)) := by
  intro v w s
  by_cases h : v = w
  · rw [if_pos h]; exact Or.inl ⟨true, rfl⟩
  · rw [if_neg h]; exact Or.inr ⟨.badAlloc, rfl⟩

/-- Variable 1 is empty before the copy, and the copy succeeds. -/
example : view (s0 tr0) 1 = .absent ∧ Live 2 (view (s0 tr0)) (at' 0 []) ∧ Fits 2 3 (view (s0 tr0)) (at' 0 []) ∧
    Demo.outcome (call tr0 Demo.T 2 (⟨.copy (at' 1 []) (at' 0 []), 3, from' 200⟩ : NCall Var Nat Nat) (s0 tr0)) = 0 := by
  decide +kernel

end
end Verif.Props
